import Verif.Props.SspWeights
import Verif.Cases

/-! C142: adding and scaling star formation histories (`/repo/dsps/utils.py:cumulative_mstar_formed`,
`/repo/dsps/sed/stellar_age_weights.py`, `/repo/dsps/sed/stellar_sed.py`). -/
namespace Dsps.Props
open Dsps.Utils Dsps.Lemmas Dsps.StellarAgeWeights Dsps.MetallicityWeights Dsps.SspWeights Dsps.Constants Jnp Spec Set
open scoped BigOperators

variable {n m k w : ℕ}

/-- C142: **the mass formed is affine in the star formation history**: at every table time the mass of the combination
`α s1 + β s2` is the combination of the masses, up to the `(1-α-β)`-fold of the mass of the fixed rate `1e-14` that the package
assumes at 0.001 Gyr. -/
theorem C142_mass_affine (t s1 s2 : Fin (n + 1) → ℝ) (α β : ℝ) (i : Fin (n + 1)) :
    cumulative_mstar_formed t (fun j => α * s1 j + β * s2 j) i =
      α * cumulative_mstar_formed t s1 i + β * cumulative_mstar_formed t s2 i +
        (1 - α - β) * (1e9 * trapezoidArea 0.001 (t 0) 1e-14 0) := by
  induction i using Fin.induction with
  | zero => rw [(C12_mstar_formula t _).1, (C12_mstar_formula t _).1, (C12_mstar_formula t _).1]; unfold trapezoidArea; ring
  | succ i ih => rw [(C12_mstar_formula t _).2, (C12_mstar_formula t _).2, (C12_mstar_formula t _).2, ih]; unfold trapezoidArea; ring

/-- two histories of one galaxy at the table times 1, 2, 4 Gyr: 1.998e9 Msun formed by 1 Gyr when their rates there sum to 4 -/
example : cumulative_mstar_formed ![1, 2, 4] (fun j => 1 * (![1, 1, 1] : Fin 3 → ℝ) j + 1 * (![3, 5, 0] : Fin 3 → ℝ) j) 2 =
    1 * cumulative_mstar_formed ![1, 2, 4] ![1, 1, 1] 2 + 1 * cumulative_mstar_formed ![1, 2, 4] ![3, 5, 0] 2 +
        (1 - 1 - 1) * (1e9 * trapezoidArea 0.001 ((![1, 2, 4] : Fin 3 → ℝ) 0) 1e-14 0) := C142_mass_affine _ _ _ 1 1 2

/-- mass formed at table times grows with the star formation rate -/
lemma mstar_mono {t s s' : Fin (n + 1) → ℝ} (ht : Monotone t) (ht0 : 0.001 ≤ t 0) (h : ∀ j, s j ≤ s' j) (i : Fin (n + 1)) :
    cumulative_mstar_formed t s i ≤ cumulative_mstar_formed t s' i := by
  induction i using Fin.induction with
  | zero =>
    rw [(C12_mstar_formula t _).1, (C12_mstar_formula t _).1]; unfold trapezoidArea
    have := sub_nonneg.mpr ht0
    nlinarith [h 0]
  | succ i ih =>
    rw [(C12_mstar_formula t _).2, (C12_mstar_formula t _).2]; unfold trapezoidArea
    have := sub_nonneg.mpr (ht (Fin.castSucc_lt_succ (i := i)).le)
    nlinarith [h i.castSucc, h i.succ, mul_nonneg this (sub_nonneg.mpr (h i.castSucc)), mul_nonneg this (sub_nonneg.mpr (h i.succ))]

section
variable [Dtype] {t s s' s1 s2 : Fin (n + 2) → ℝ} {sfr_min c : ℝ}

lemma massFormed_logs (ht : StrictMono t) (ht0 : 0.001 < t 0) (hs : 0 < sfr_min) (τ : ℝ)
    {A : ℝ} (hA : 0 < A)
    (h : ∀ i, cumulative_mstar_formed t (fun j => max sfr_min (s' j)) i ≤ A * cumulative_mstar_formed t (fun j => max sfr_min (s j)) i) :
    massFormed t s' sfr_min τ ≤ A * massFormed t s sfr_min τ := by
  have hp := fun u : Fin (n + 2) → ℝ => (C12_mstar_pos_strictMono t (fun j => max sfr_min (u j)) ht ht0 fun i => lt_max_of_lt_left hs).1
  have hm := (lgt_strictMono ht ht0).monotone
  have key := interp_mono_fp hm (log10 τ) (f := fun i => log10 (cumulative_mstar_formed t (fun j => max sfr_min (s' j)) i))
    (g := fun i => 1 * log10 (cumulative_mstar_formed t (fun j => max sfr_min (s j)) i) + 1 * log10 A) fun i => by
      rw [one_mul, one_mul, show log10 (cumulative_mstar_formed t (fun j => max sfr_min (s j)) i) + log10 A =
        log10 (A * cumulative_mstar_formed t (fun j => max sfr_min (s j)) i) from by
          unfold log10; rw [Real.logb_mul hA.ne' (hp s i).ne']; ring]
      exact log10_le (hp s' i) (h i)
  rw [interp_linear hm (log10 τ) 1 1 (fun i => log10 (cumulative_mstar_formed t (fun j => max sfr_min (s j)) i)) (fun _ => log10 A), interp_const hm] at key
  have := exp10_strictMono.monotone key
  have e : exp10 (1 * interp (log10 τ) (fun i => log10 (t i)) (fun i => log10 (cumulative_mstar_formed t (fun j => max sfr_min (s j)) i)) + 1 * log10 A) =
      A * massFormed t s sfr_min τ := by
    rw [one_mul, one_mul]
    unfold exp10 massFormed
    rw [Real.rpow_add (by norm_num), mul_comm]
    congr 1
    exact exp10_log10 hA
  rw [e] at this
  exact this

/-- C142: **more star formation, more mass**: raising the star formation rate at any table times never lowers the mass formed by any time; a history that is nowhere
larger than `c ≥ 1` times another has formed at most `c` times its mass by any time. -/
theorem C142_mass_monotone (ht : StrictMono t) (ht0 : 0.001 < t 0) (hs : 0 < sfr_min) (hc : 1 ≤ c) (h : ∀ j, s' j ≤ c * max sfr_min (s j)) (τ : ℝ) :
    massFormed t s' sfr_min τ ≤ c * massFormed t s sfr_min τ := by
  have hc0 : 0 < c := by linarith
  refine massFormed_logs ht ht0 hs τ hc0 fun i => ?_
  have h1 := mstar_mono ht.monotone ht0.le (s := fun j => max sfr_min (s' j)) (s' := fun j => c * max sfr_min (s j) + 0 * 0) (fun j => by
    have : sfr_min ≤ c * max sfr_min (s j) := by nlinarith [le_max_left sfr_min (s j)]
    simpa using max_le this (h j)) i
  rw [C142_mass_affine t (fun j => max sfr_min (s j)) (fun _ => 0) c 0 i] at h1
  have h2 : 0 ≤ trapezoidArea 0.001 (t 0) 1e-14 0 := by unfold trapezoidArea; nlinarith
  nlinarith [mul_nonneg (sub_nonneg.mpr hc) h2]

/-- every time lies in a gap of the table (or before or after it) such that the mass formed lies between the masses at its ends, for every history -/
lemma massFormed_gap (ht : StrictMono t) (ht0 : 0.001 < t 0) (hs : 0 < sfr_min) (τ : ℝ) :
    ∃ i : Fin (n + 1), ∀ s : Fin (n + 2) → ℝ, cumulative_mstar_formed t (fun j => max sfr_min (s j)) i.castSucc ≤ massFormed t s sfr_min τ ∧
      massFormed t s sfr_min τ ≤ cumulative_mstar_formed t (fun j => max sfr_min (s j)) i.succ := by
  obtain ⟨i, x, h0, h1, h⟩ := interp_convex (lgt_strictMono ht ht0).monotone (log10 τ)
  refine ⟨i, fun s => ?_⟩
  have hp := C12_mstar_pos_strictMono t (fun j => max sfr_min (s j)) ht ht0 fun i => lt_max_of_lt_left hs
  have hle := log10_le (hp.1 i.castSucc) (hp.2 (Fin.castSucc_lt_succ (i := i))).le
  have e : massFormed t s sfr_min τ = exp10 (interp (log10 τ) (fun i => log10 (t i)) (fun i => log10 (cumulative_mstar_formed t (fun j => max sfr_min (s j)) i))) := rfl
  rw [e, h]
  constructor
  · rw [← exp10_log10 (hp.1 i.castSucc)]
    apply exp10_strictMono.monotone
    rw [exp10_log10 (hp.1 i.castSucc)]
    nlinarith
  · rw [← exp10_log10 (hp.1 i.succ)]
    apply exp10_strictMono.monotone
    rw [exp10_log10 (hp.1 i.succ)]
    nlinarith

/-- floors: the mass of two floored histories exceeds that of the floored sum by at most the mass of the floor -/
lemma mstar_floors (ht : StrictMono t) (ht0 : 0.001 < t 0) (hs : 1e-14 ≤ sfr_min) (h1 : ∀ j, 0 ≤ s1 j) (h2 : ∀ j, 0 ≤ s2 j) (i : Fin (n + 2)) :
    let N := fun s : Fin (n + 2) → ℝ => cumulative_mstar_formed t (fun j => max sfr_min (s j)) i
    N (fun j => s1 j + s2 j) ≤ N s1 + N s2 ∧ N s1 + N s2 ≤ N (fun j => s1 j + s2 j) + 1e9 * (sfr_min * (t i - 0.001)) := by
  dsimp only
  have fl : ∀ j, max sfr_min (s1 j + s2 j) ≤ max sfr_min (s1 j) + max sfr_min (s2 j) ∧
      max sfr_min (s1 j) + max sfr_min (s2 j) ≤ max sfr_min (s1 j + s2 j) + sfr_min := fun j => by
    have a := h1 j; have b := h2 j
    have p : 0 < sfr_min := lt_of_lt_of_le (by norm_num) hs
    constructor
    · apply max_le
      · linarith [le_max_left sfr_min (s1 j), le_max_left sfr_min (s2 j)]
      · linarith [le_max_right sfr_min (s1 j), le_max_right sfr_min (s2 j)]
    · rcases max_cases sfr_min (s1 j) with ⟨e1, _⟩ | ⟨e1, _⟩ <;> rcases max_cases sfr_min (s2 j) with ⟨e2, _⟩ | ⟨e2, _⟩ <;> rw [e1, e2] <;>
        linarith [le_max_left sfr_min (s1 j + s2 j), le_max_right sfr_min (s1 j + s2 j)]
  have hk : 0 < t 0 - 0.001 := sub_pos.mpr ht0
  induction i using Fin.induction with
  | zero =>
    rw [(C12_mstar_formula t _).1, (C12_mstar_formula t _).1, (C12_mstar_formula t _).1]; unfold trapezoidArea
    obtain ⟨f1, f2⟩ := fl 0
    constructor <;> nlinarith [mul_nonneg hk.le (sub_nonneg.mpr f1), mul_nonneg hk.le (sub_nonneg.mpr f2), mul_nonneg hk.le (sub_nonneg.mpr hs)]
  | succ i ih =>
    rw [(C12_mstar_formula t _).2, (C12_mstar_formula t _).2, (C12_mstar_formula t _).2]; unfold trapezoidArea
    obtain ⟨f1, f2⟩ := fl i.castSucc
    obtain ⟨g1, g2⟩ := fl i.succ
    have hg : 0 ≤ t i.succ - t i.castSucc := sub_nonneg.mpr (ht (Fin.castSucc_lt_succ (i := i))).le
    obtain ⟨ih1, ih2⟩ := ih
    constructor <;> nlinarith [mul_nonneg hg (sub_nonneg.mpr f1), mul_nonneg hg (sub_nonneg.mpr f2), mul_nonneg hg (sub_nonneg.mpr g1), mul_nonneg hg (sub_nonneg.mpr g2)]
end

/-- the history `s` (never below `sfr_min`) forms at most the mass `μ` (Msun) between neighbouring table times -/
def PerGap (μ : ℝ) (t s : Fin (n + 2) → ℝ) (sfr_min : ℝ) : Prop :=
  ∀ i : Fin (n + 1), 1e9 * trapezoidArea (t i.castSucc) (t i.succ) (max sfr_min (s i.castSucc)) (max sfr_min (s i.succ)) ≤ μ

/-- C142: **the masses of two components add up**, at every time, to the mass of the sum of the histories, up to the mass formed within one gap of the table and the mass of
the floor (`1e9 * sfr_min` Msun per Gyr). -/
theorem C142_mass_superposition [Dtype] {t s1 s2 : Fin (n + 2) → ℝ} {sfr_min μ1 μ2 : ℝ} (ht : StrictMono t) (ht0 : 0.001 < t 0) (hs : 1e-14 ≤ sfr_min)
    (h1 : ∀ j, 0 ≤ s1 j) (h2 : ∀ j, 0 ≤ s2 j) (hμ1 : PerGap μ1 t s1 sfr_min) (hμ2 : PerGap μ2 t s2 sfr_min) (τ : ℝ) :
    |massFormed t (fun j => s1 j + s2 j) sfr_min τ - (massFormed t s1 sfr_min τ + massFormed t s2 sfr_min τ)| ≤
      μ1 + μ2 + 1e9 * (sfr_min * t (Fin.last (n + 1))) := by
  have p : 0 < sfr_min := lt_of_lt_of_le (by norm_num) hs
  obtain ⟨i, h⟩ := massFormed_gap ht ht0 p τ
  have a := h fun j => s1 j + s2 j
  have b := h s1
  have d := h s2
  have e1 := hμ1 i
  have e2 := hμ2 i
  have f := mstar_floors ht ht0 hs h1 h2 i.castSucc
  have g := mstar_floors ht ht0 hs h1 h2 i.succ
  rw [(C12_mstar_formula t _).2] at b d
  simp only [] at f g
  rw [(C12_mstar_formula t (fun j => max sfr_min (s1 j))).2, (C12_mstar_formula t (fun j => max sfr_min (s2 j))).2] at g
  have hT := ht.monotone (Fin.le_last i.castSucc)
  have q : 1e9 * (sfr_min * (t i.castSucc - 0.001)) ≤ 1e9 * (sfr_min * t (Fin.last (n + 1))) := by nlinarith
  have q' : 0 ≤ 1e9 * (sfr_min * t (Fin.last (n + 1))) := by
    have := t_pos ht ht0 (Fin.last (n + 1)); positivity
  rw [abs_le]
  constructor <;> linarith [a.1, a.2, b.1, b.2, d.1, d.2, f.1, f.2, g.1]

/-! ## spectra -/

section sed
variable [Dtype] {t s s1 s2 : Fin (n + 2) → ℝ} {a : Fin (m + 3) → ℝ} {z : Fin (k + 3) → ℝ} {flux : Fin (k + 3) → Fin (m + 3) → Fin w → ℝ}
  {t_obs gal_lgmet scatter μ1 μ2 B : ℝ}

/-- mass formed by `t_obs` that belongs to no age bin of the grid `a`: born after the birth time of the youngest edge or before that of the oldest -/
noncomputable def unbinned (t s : Fin (n + 2) → ℝ) (a : Fin (m + 3) → ℝ) (t_obs : ℝ) : ℝ :=
  massFormed t s 1e-14 t_obs - massFormed t s 1e-14 (birthTime t_obs (get_lg_age_bin_edges a 0)) +
    massFormed t s 1e-14 (birthTime t_obs (get_lg_age_bin_edges a (Fin.last (m + 3))))

/-- the documented inputs of a SED: an increasing table of times resolved by the interpolation, an age grid with mild changes of spacing that meets the table, and a
metallicity grid likewise -/
structure SedInputs (t : Fin (n + 2) → ℝ) (a : Fin (m + 3) → ℝ) (z : Fin (k + 3) → ℝ) (t_obs scatter : ℝ) : Prop where
  times : StrictMono t
  start : 0.001 < t 0
  resolved : Resolved fun i => Real.logb 10 (t i)
  ages : MildlySpaced a
  young : t 0 < t_obs - (10:ℝ) ^ (get_lg_age_bin_edges a 0)
  old : t_obs - (10:ℝ) ^ (get_lg_age_bin_edges a (Fin.last (m + 3))) < t (Fin.last (n + 1))
  width : 0 < scatter
  mets : MildlySpaced z
  low : -10 < z 0
  high : z (Fin.last (k + 2)) < 10

/-- mass in the age bin `j` -/
noncomputable def rawMass (t s : Fin (n + 2) → ℝ) (a : Fin (m + 3) → ℝ) (t_obs : ℝ) (j : Fin (m + 3)) : ℝ :=
  massFormed t s 1e-14 (birthTime t_obs (get_lg_age_bin_edges a j.castSucc)) - massFormed t s 1e-14 (birthTime t_obs (get_lg_age_bin_edges a j.succ))

/-- light of unit mass in the age bin `j` -/
noncomputable def unitLight (gal_lgmet scatter : ℝ) (z : Fin (k + 3) → ℝ) (flux : Fin (k + 3) → Fin (m + 3) → Fin w → ℝ) (l : Fin w) (j : Fin (m + 3)) : ℝ :=
  ∑ i, calc_lgmet_weights_from_lognormal_mdf gal_lgmet scatter z i * flux i j l

lemma sed_raw (H : SedInputs t a z t_obs scatter) (s : Fin (n + 2) → ℝ) (l : Fin w) :
    (calc_rest_sed_sfh_table_lognormal_mdf t s gal_lgmet scatter z a flux t_obs).rest_sed l =
      massFormed t s 1e-14 t_obs / (massFormed t s 1e-14 (birthTime t_obs (get_lg_age_bin_edges a 0)) -
        massFormed t s 1e-14 (birthTime t_obs (get_lg_age_bin_edges a (Fin.last (m + 3))))) * ∑ j, rawMass t s a t_obs j * unitLight gal_lgmet scatter z flux l j := by
  have hmet := C21_lgmet_weights_prob_mild_partial gal_lgmet scatter H.width z H.mets H.low H.high
  have hage := C17_age_weights_prob_mild_partial t s a t_obs H.times H.start H.resolved H.ages H.young H.old
  have hW := (C23_joint_weights_lognormal t s gal_lgmet scatter z a t_obs hage hmet)
  rw [(C25_sed_formula t s (fun _ => 0) gal_lgmet scatter z a flux t_obs SFR_MIN l).1]
  have e : ∀ i j, (calc_rest_sed_sfh_table_lognormal_mdf t s gal_lgmet scatter z a flux t_obs SFR_MIN).weights i j =
      calc_lgmet_weights_from_lognormal_mdf gal_lgmet scatter z i * calc_age_weights_from_sfh_table t s a t_obs SFR_MIN j := fun i j => by
    have := hW.2.2.1 i j
    rw [hW.1, hW.2.1] at this
    exact this
  simp only [e, C20_weight_is_mass_share]
  rw [Finset.sum_comm, div_mul_eq_mul_div, mul_div_assoc, Finset.sum_div]
  congr 1
  refine Finset.sum_congr rfl fun j _ => ?_
  unfold unitLight rawMass SFR_MIN
  rw [Finset.mul_sum, Finset.sum_div]
  exact Finset.sum_congr rfl fun i _ => by ring

lemma unitLight_le (H : SedInputs t a z t_obs scatter) {l : Fin w} (hB : ∀ i j, |flux i j l| ≤ B) (j : Fin (m + 3)) :
    |unitLight gal_lgmet scatter z flux l j| ≤ B := by
  have hmet := C21_lgmet_weights_prob_mild_partial gal_lgmet scatter H.width z H.mets H.low H.high
  unfold unitLight
  refine (Finset.abs_sum_le_sum_abs _ _).trans ?_
  calc ∑ i, |calc_lgmet_weights_from_lognormal_mdf gal_lgmet scatter z i * flux i j l|
      ≤ ∑ i, calc_lgmet_weights_from_lognormal_mdf gal_lgmet scatter z i * B := Finset.sum_le_sum fun i _ => by
        rw [abs_mul, abs_of_nonneg (hmet.1 i)]
        exact mul_le_mul_of_nonneg_left (hB i j) (hmet.1 i)
    _ = B := by rw [← Finset.sum_mul, hmet.2, one_mul]

lemma SedInputs.mass_pos (H : SedInputs t a z t_obs scatter) (s : Fin (n + 2) → ℝ) :
    0 < massFormed t s 1e-14 (birthTime t_obs (get_lg_age_bin_edges a 0)) - massFormed t s 1e-14 (birthTime t_obs (get_lg_age_bin_edges a (Fin.last (m + 3)))) :=
  (C17_total_mass_pos_iff t s a t_obs 1e-14 (by norm_num) H.times H.start H.resolved H.ages.1).2.mpr ⟨H.young, H.old⟩

lemma SedInputs.raw_nonneg (H : SedInputs t a z t_obs scatter) (s : Fin (n + 2) → ℝ) (j : Fin (m + 3)) : 0 ≤ rawMass t s a t_obs j :=
  sub_nonneg.mpr (massFormed_mono H.times H.start (by norm_num) (birthTime_pos _ _)
    (birthTime_anti t_obs ((C17_age_edges_mono a H.ages).monotone (Fin.castSucc_lt_succ (i := j)).le)))

lemma SedInputs.raw_sum (s : Fin (n + 2) → ℝ) : ∑ j, rawMass t s a t_obs j =
    massFormed t s 1e-14 (birthTime t_obs (get_lg_age_bin_edges a 0)) - massFormed t s 1e-14 (birthTime t_obs (get_lg_age_bin_edges a (Fin.last (m + 3)))) :=
  sum_telescope' fun i => massFormed t s 1e-14 (birthTime t_obs (get_lg_age_bin_edges a i))

/-- what is not in any bin is non-negative -/
lemma SedInputs.unbinned_nonneg (H : SedInputs t a z t_obs scatter) (s : Fin (n + 2) → ℝ) : 0 ≤ unbinned t s a t_obs := by
  have h1 : birthTime t_obs (get_lg_age_bin_edges a 0) ≤ t_obs := by
    unfold birthTime
    have : (0:ℝ) < 10 ^ get_lg_age_bin_edges a 0 := by positivity
    exact max_le (by linarith [H.start, H.young]) (by linarith)
  have := massFormed_mono (s := s) H.times H.start (sfr_min := 1e-14) (by norm_num) (birthTime_pos _ _) h1
  have h2 := massFormed_pos (t := t) (s := s) (sfr_min := 1e-14) (birthTime t_obs (get_lg_age_bin_edges a (Fin.last (m + 3))))
  unfold unbinned
  linarith

lemma light_le (H : SedInputs t a z t_obs scatter) {l : Fin w} (hB : ∀ i j, |flux i j l| ≤ B) (x : Fin (m + 3) → ℝ) :
    |∑ j, x j * unitLight gal_lgmet scatter z flux l j| ≤ B * ∑ j, |x j| := by
  refine (Finset.abs_sum_le_sum_abs _ _).trans ?_
  rw [Finset.mul_sum]
  refine Finset.sum_le_sum fun j _ => ?_
  rw [abs_mul, mul_comm]
  exact mul_le_mul_of_nonneg_right (unitLight_le H hB j) (abs_nonneg _)

/-- the SED is the light of the binned mass, up to the unbinned mass -/
lemma sed_near (H : SedInputs t a z t_obs scatter) {l : Fin w} (hB : ∀ i j, |flux i j l| ≤ B) (s : Fin (n + 2) → ℝ) :
    |(calc_rest_sed_sfh_table_lognormal_mdf t s gal_lgmet scatter z a flux t_obs).rest_sed l - ∑ j, rawMass t s a t_obs j * unitLight gal_lgmet scatter z flux l j| ≤
      B * unbinned t s a t_obs := by
  rw [sed_raw H s l]
  have hT := H.mass_pos s
  have hX := light_le (gal_lgmet := gal_lgmet) H hB (rawMass t s a t_obs)
  simp only [abs_of_nonneg (H.raw_nonneg s _)] at hX
  rw [SedInputs.raw_sum] at hX
  have hu := H.unbinned_nonneg s
  have hB0 : 0 ≤ B := (abs_nonneg _).trans (hB 0 0)
  have eu : unbinned t s a t_obs = massFormed t s 1e-14 t_obs - (massFormed t s 1e-14 (birthTime t_obs (get_lg_age_bin_edges a 0)) -
      massFormed t s 1e-14 (birthTime t_obs (get_lg_age_bin_edges a (Fin.last (m + 3))))) := by unfold unbinned; ring
  rw [eu] at hu ⊢
  generalize massFormed t s 1e-14 (birthTime t_obs (get_lg_age_bin_edges a 0)) -
        massFormed t s 1e-14 (birthTime t_obs (get_lg_age_bin_edges a (Fin.last (m + 3)))) = T at *
  generalize ∑ j, rawMass t s a t_obs j * unitLight gal_lgmet scatter z flux l j = X at *
  generalize massFormed t s 1e-14 t_obs = M at *
  rw [show M / T * X - X = (M - T) * (X / T) by field_simp, abs_mul, abs_of_nonneg hu, mul_comm]
  refine mul_le_mul_of_nonneg_right ?_ hu
  rw [abs_div, abs_of_pos hT, div_le_iff₀ hT]
  exact hX

/-- C142: **the spectra of two components add up to the spectrum of the sum of the histories**, at every wavelength, up to the flux of the mass outside the age bins and
twice per age bin the mass formed in one gap of the table (and of the floor, `1e-5` Msun per Gyr).  All these vanish when age grid and table are refined. -/
theorem C142_sed_superposition (H : SedInputs t a z t_obs scatter) (h1 : ∀ j, 0 ≤ s1 j) (h2 : ∀ j, 0 ≤ s2 j) (hμ1 : PerGap μ1 t s1 1e-14) (hμ2 : PerGap μ2 t s2 1e-14)
    {l : Fin w} (hB : ∀ i j, |flux i j l| ≤ B) :
    let sed := fun s => (calc_rest_sed_sfh_table_lognormal_mdf t s gal_lgmet scatter z a flux t_obs).rest_sed l
    |sed (fun j => s1 j + s2 j) - (sed s1 + sed s2)| ≤
      B * (unbinned t (fun j => s1 j + s2 j) a t_obs + unbinned t s1 a t_obs + unbinned t s2 a t_obs +
        2 * (m + 3) * (μ1 + μ2 + 1e-5 * t (Fin.last (n + 1)))) := by
  intro sed
  have a0 := sed_near (gal_lgmet := gal_lgmet) H hB fun j => s1 j + s2 j
  have a1 := sed_near (gal_lgmet := gal_lgmet) H hB s1
  have a2 := sed_near (gal_lgmet := gal_lgmet) H hB s2
  have hM := fun e => abs_le.mp (C142_mass_superposition H.times H.start le_rfl h1 h2 hμ1 hμ2 (birthTime t_obs e))
  have hd := light_le (gal_lgmet := gal_lgmet) H hB fun j => rawMass t (fun j => s1 j + s2 j) a t_obs j - rawMass t s1 a t_obs j - rawMass t s2 a t_obs j
  have hs : ∑ j, |rawMass t (fun j => s1 j + s2 j) a t_obs j - rawMass t s1 a t_obs j - rawMass t s2 a t_obs j| ≤
      ∑ _j : Fin (m + 3), 2 * (μ1 + μ2 + 1e-5 * t (Fin.last (n + 1))) := Finset.sum_le_sum fun j _ => by
    have b1 := hM (get_lg_age_bin_edges a j.castSucc)
    have b2 := hM (get_lg_age_bin_edges a j.succ)
    have e : 1e9 * (1e-14 * t (Fin.last (n + 1))) = 1e-5 * t (Fin.last (n + 1)) := by ring
    rw [e] at b1 b2
    unfold rawMass
    rw [abs_le]
    constructor <;> linarith [b1.1, b1.2, b2.1, b2.2]
  rw [Finset.sum_const, Finset.card_univ, Fintype.card_fin, nsmul_eq_mul] at hs
  push_cast at hs
  have hB0 : 0 ≤ B := (abs_nonneg _).trans (hB 0 0)
  have hd' := hd.trans (mul_le_mul_of_nonneg_left hs hB0)
  simp only [sub_mul, Finset.sum_sub_distrib] at hd'
  rw [abs_le] at *
  have a01 := a0.1; have a02 := a0.2; have a11 := a1.1; have a12 := a1.2; have a21 := a2.1; have a22 := a2.2; have d1 := hd'.1; have d2 := hd'.2
  simp only [sed]
  constructor <;> nlinarith

/-! ## scaling -/

/-- deviation from proportionality: the fraction of the rate `1e-14` assumed at 0.001 Gyr in the sum of it and the first rate of the table -/
noncomputable def padFraction (s : Fin (n + 2) → ℝ) : ℝ := 1e-14 / (1e-14 + s 0)

/-- C142: **scaling a history by `c ≥ 1` scales the mass formed** by any time, up to the tiny relative error `padFraction`. -/
theorem C142_mass_scaling {c : ℝ} (ht : StrictMono t) (ht0 : 0.001 < t 0) (hc : 1 ≤ c) (hs : ∀ j, 1e-14 ≤ s j) (τ : ℝ) :
    (1 - padFraction s) * (c * massFormed t s 1e-14 τ) ≤ massFormed t (fun j => c * s j) 1e-14 τ ∧
      massFormed t (fun j => c * s j) 1e-14 τ ≤ c * massFormed t s 1e-14 τ := by
  have p : (0:ℝ) < 1e-14 := by norm_num
  have hc0 : 0 < c := by linarith
  have f1 : (fun j => max 1e-14 (s j)) = s := funext fun j => max_eq_right (hs j)
  have f2 : (fun j => max 1e-14 (c * s j)) = fun j => c * s j + 0 * 0 := funext fun j => by
    rw [max_eq_right (by nlinarith [hs j])]; ring
  have hpad : 0 < trapezoidArea 0.001 (t 0) 1e-14 0 := by unfold trapezoidArea; nlinarith
  have hm := C12_mstar_pos_strictMono t s ht ht0 fun i => p.trans_le (hs i)
  have h0 : 0 < s 0 := p.trans_le (hs 0)
  have hq0 : 0 < padFraction s := by unfold padFraction; positivity
  have hq1 : padFraction s < 1 := by unfold padFraction; rw [div_lt_one (by positivity)]; linarith
  have hN : ∀ i, 1e9 * trapezoidArea 0.001 (t 0) 1e-14 0 ≤ padFraction s * cumulative_mstar_formed t s i := fun i => by
    refine le_trans (le_of_eq ?_) (mul_le_mul_of_nonneg_left (hm.2.monotone (Fin.zero_le i)) hq0.le)
    rw [(C12_mstar_formula t s).1]
    unfold padFraction trapezoidArea
    have : (1e-14 + s 0) ≠ 0 := by positivity
    field_simp
    ring
  have hA : ∀ i, cumulative_mstar_formed t (fun j => max 1e-14 (c * s j)) i = c * cumulative_mstar_formed t s i + (1 - c) * (1e9 * trapezoidArea 0.001 (t 0) 1e-14 0) := fun i => by
    rw [f2, C142_mass_affine t s (fun _ => 0) c 0 i]; ring
  constructor
  · have := massFormed_logs (s' := s) (s := fun j => c * s j) ht ht0 p τ (A := ((1 - padFraction s) * c)⁻¹) (by have := sub_pos.mpr hq1; positivity) fun i => by
      rw [f1, hA, inv_mul_eq_div, le_div_iff₀ (by have := sub_pos.mpr hq1; positivity)]
      nlinarith [hN i, mul_nonneg (sub_nonneg.mpr hc) hpad.le, mul_le_mul_of_nonneg_left (hN i) hc0.le]
    rw [inv_mul_eq_div, le_div_iff₀ (by have := sub_pos.mpr hq1; positivity)] at this
    linarith
  · refine massFormed_logs (s' := fun j => c * s j) (s := s) ht ht0 p τ hc0 fun i => ?_
    rw [f1, hA]
    nlinarith [mul_nonneg (sub_nonneg.mpr hc) hpad.le]

/-- C142: **the age weights do not depend on the normalisation of the history**, up to four times `padFraction` over the fraction of the mass that is in the age bins. -/
theorem C142_age_weights_scaling {c : ℝ} (H : SedInputs t a z t_obs scatter) (hc : 1 ≤ c) (hs : ∀ j, 1e-14 ≤ s j) {β : ℝ} (hβ : 0 < β)
    (hbin : β * massFormed t s 1e-14 t_obs ≤ massFormed t s 1e-14 t_obs - unbinned t s a t_obs) (hsm : padFraction s ≤ β / 2) (j : Fin (m + 3)) :
    |calc_age_weights_from_sfh_table t (fun j => c * s j) a t_obs SFR_MIN j - calc_age_weights_from_sfh_table t s a t_obs SFR_MIN j| ≤ 4 * padFraction s / β := by
  rw [C20_weight_is_mass_share, C20_weight_is_mass_share]
  have hc0 : 0 < c := by linarith
  have hS := fun e => C142_mass_scaling H.times H.start hc hs (birthTime t_obs e)
  have q0 : 0 ≤ padFraction s := by unfold padFraction; have := hs 0; exact div_nonneg (by norm_num) (by linarith)
  have hb : unbinned t s a t_obs = massFormed t s 1e-14 t_obs - (massFormed t s 1e-14 (birthTime t_obs (get_lg_age_bin_edges a 0)) -
      massFormed t s 1e-14 (birthTime t_obs (get_lg_age_bin_edges a (Fin.last (m + 3))))) := by unfold unbinned; ring
  have hE : ∀ e : Fin (m + 4), 0 < massFormed t s 1e-14 (birthTime t_obs (get_lg_age_bin_edges a e)) ∧
      massFormed t s 1e-14 (birthTime t_obs (get_lg_age_bin_edges a e)) ≤ massFormed t s 1e-14 t_obs := fun e => by
    refine ⟨massFormed_pos _, massFormed_mono H.times H.start (by norm_num) (birthTime_pos _ _) ?_⟩
    unfold birthTime
    have p1 : (0:ℝ) < 10 ^ get_lg_age_bin_edges a e := by positivity
    have p2 : (0:ℝ) < 10 ^ get_lg_age_bin_edges a 0 := by positivity
    exact max_le (by linarith [H.start, H.young]) (by linarith)
  have hM : 0 < massFormed t s 1e-14 t_obs := massFormed_pos _
  have hraw := H.raw_nonneg s j
  have hT := H.mass_pos s
  have hrawT : rawMass t s a t_obs j ≤ massFormed t s 1e-14 (birthTime t_obs (get_lg_age_bin_edges a 0)) -
      massFormed t s 1e-14 (birthTime t_obs (get_lg_age_bin_edges a (Fin.last (m + 3)))) := by
    rw [← SedInputs.raw_sum]
    exact Finset.single_le_sum (fun i _ => H.raw_nonneg s i) (Finset.mem_univ j)
  unfold rawMass at hraw hrawT
  have x1 := hS (get_lg_age_bin_edges a j.castSucc); have x2 := hS (get_lg_age_bin_edges a j.succ)
  have x3 := hS (get_lg_age_bin_edges a 0); have x4 := hS (get_lg_age_bin_edges a (Fin.last (m + 3)))
  have y1 := hE j.castSucc; have y2 := hE j.succ; have y3 := hE 0; have y4 := hE (Fin.last (m + 3))
  rw [hb] at hbin
  unfold SFR_MIN
  generalize massFormed t (fun j => c * s j) 1e-14 (birthTime t_obs (get_lg_age_bin_edges a j.castSucc)) = A' at *
  generalize massFormed t (fun j => c * s j) 1e-14 (birthTime t_obs (get_lg_age_bin_edges a j.succ)) = B' at *
  generalize massFormed t (fun j => c * s j) 1e-14 (birthTime t_obs (get_lg_age_bin_edges a 0)) = C' at *
  generalize massFormed t (fun j => c * s j) 1e-14 (birthTime t_obs (get_lg_age_bin_edges a (Fin.last (m + 3)))) = D' at *
  generalize massFormed t s 1e-14 (birthTime t_obs (get_lg_age_bin_edges a j.castSucc)) = A at *
  generalize massFormed t s 1e-14 (birthTime t_obs (get_lg_age_bin_edges a j.succ)) = B at *
  generalize massFormed t s 1e-14 (birthTime t_obs (get_lg_age_bin_edges a 0)) = C at *
  generalize massFormed t s 1e-14 (birthTime t_obs (get_lg_age_bin_edges a (Fin.last (m + 3)))) = D at *
  generalize massFormed t s 1e-14 t_obs = M at *
  generalize padFraction s = q at *
  have r1 : |(A' - B') - c * (A - B)| ≤ q * (c * M) := by
    rw [abs_le]
    have := mul_le_mul_of_nonneg_left y1.2 hc0.le; have := mul_le_mul_of_nonneg_left y2.2 hc0.le
    constructor <;> nlinarith
  have r2 : |(C' - D') - c * (C - D)| ≤ q * (c * M) := by
    rw [abs_le]
    have := mul_le_mul_of_nonneg_left y3.2 hc0.le; have := mul_le_mul_of_nonneg_left y4.2 hc0.le
    constructor <;> nlinarith
  have r3 : c * (C - D) / 2 ≤ C' - D' := by
    have : q * (c * M) ≤ c * (C - D) / 2 := by nlinarith [mul_le_mul_of_nonneg_right hsm (by positivity : 0 ≤ c * M), mul_le_mul_of_nonneg_left hbin hc0.le]
    linarith [(abs_le.mp r2).1]
  have hT' : 0 < C' - D' := lt_of_lt_of_le (by positivity) r3
  rw [show (A' - B') / (C' - D') - (A - B) / (C - D) = (((A' - B') - c * (A - B)) - ((C' - D') - c * (C - D)) * ((A - B) / (C - D))) / (C' - D') by
    field_simp; ring, abs_div, abs_of_pos hT', div_le_div_iff₀ hT' hβ]
  have r4 : |((A' - B') - c * (A - B)) - ((C' - D') - c * (C - D)) * ((A - B) / (C - D))| ≤ 2 * (q * (c * M)) := by
    refine (abs_sub _ _).trans ?_
    rw [abs_mul, abs_of_nonneg (div_nonneg hraw hT.le)]
    have : (A - B) / (C - D) ≤ 1 := (div_le_one hT).mpr hrawT
    have := mul_le_mul r2 this (div_nonneg hraw hT.le) (by positivity)
    linarith
  calc _ ≤ 2 * (q * (c * M)) * β := mul_le_mul_of_nonneg_right r4 hβ.le
    _ ≤ 4 * q * (C' - D') := by nlinarith [mul_le_mul_of_nonneg_left hbin (by positivity : 0 ≤ q * c), mul_le_mul_of_nonneg_left r3 q0]

/-- the SED as total mass times the age-weighted light -/
lemma sed_weights (H : SedInputs t a z t_obs scatter) (s : Fin (n + 2) → ℝ) (l : Fin w) :
    (calc_rest_sed_sfh_table_lognormal_mdf t s gal_lgmet scatter z a flux t_obs).rest_sed l =
      massFormed t s 1e-14 t_obs * ∑ j, calc_age_weights_from_sfh_table t s a t_obs SFR_MIN j * unitLight gal_lgmet scatter z flux l j := by
  rw [sed_raw H s l, div_mul_eq_mul_div, mul_div_assoc, Finset.sum_div]
  congr 1
  refine Finset.sum_congr rfl fun j _ => ?_
  rw [C20_weight_is_mass_share]
  unfold rawMass SFR_MIN
  ring

/-- C142: **the spectrum scales with the history**: `c ≥ 1` times the star formation rates give `c` times the spectrum, up to a relative error of `padFraction` times a
constant of the age grid. -/
theorem C142_sed_scaling {c : ℝ} (H : SedInputs t a z t_obs scatter) (hc : 1 ≤ c) (hs : ∀ j, 1e-14 ≤ s j) {β : ℝ} (hβ : 0 < β)
    (hbin : β * massFormed t s 1e-14 t_obs ≤ massFormed t s 1e-14 t_obs - unbinned t s a t_obs) (hsm : padFraction s ≤ β / 2)
    {l : Fin w} (hB : ∀ i j, |flux i j l| ≤ B) :
    let sed := fun s => (calc_rest_sed_sfh_table_lognormal_mdf t s gal_lgmet scatter z a flux t_obs).rest_sed l
    |sed (fun j => c * s j) - c * sed s| ≤ padFraction s * (1 + 4 * (m + 3) / β) * (B * (c * massFormed t s 1e-14 t_obs)) := by
  intro sed
  have hw := fun j => C142_age_weights_scaling (j := j) H hc hs hβ hbin hsm
  have hM := C142_mass_scaling H.times H.start hc hs t_obs
  have hM0 : 0 < massFormed t s 1e-14 t_obs := massFormed_pos _
  have hB0 : 0 ≤ B := (abs_nonneg _).trans (hB 0 0)
  have hc0 : 0 < c := by linarith
  have q0 : 0 ≤ padFraction s := by unfold padFraction; have := hs 0; exact div_nonneg (by norm_num) (by linarith)
  have hp := C17_age_weights_prob_mild_partial t (fun j => c * s j) a t_obs H.times H.start H.resolved H.ages H.young H.old
  have l1 := light_le (gal_lgmet := gal_lgmet) H hB (calc_age_weights_from_sfh_table t (fun j => c * s j) a t_obs SFR_MIN)
  have e1 : ∑ j, |calc_age_weights_from_sfh_table t (fun j => c * s j) a t_obs SFR_MIN j| = 1 := by
    rw [← hp.2]
    exact Finset.sum_congr rfl fun j _ => abs_of_nonneg (hp.1 j)
  rw [e1, mul_one] at l1
  have l2 := light_le (gal_lgmet := gal_lgmet) H hB fun j => calc_age_weights_from_sfh_table t (fun j => c * s j) a t_obs SFR_MIN j - calc_age_weights_from_sfh_table t s a t_obs SFR_MIN j
  have l3 := l2.trans (mul_le_mul_of_nonneg_left (Finset.sum_le_sum fun j _ => hw j) hB0)
  rw [Finset.sum_const, Finset.card_univ, Fintype.card_fin, nsmul_eq_mul] at l3
  push_cast at l3
  simp only [sub_mul, Finset.sum_sub_distrib] at l3
  simp only [sed]
  rw [sed_weights H, sed_weights H]
  generalize ∑ j, calc_age_weights_from_sfh_table t (fun j => c * s j) a t_obs SFR_MIN j * unitLight gal_lgmet scatter z flux l j = X' at *
  generalize ∑ j, calc_age_weights_from_sfh_table t s a t_obs SFR_MIN j * unitLight gal_lgmet scatter z flux l j = X at *
  generalize massFormed t (fun j => c * s j) 1e-14 t_obs = M' at *
  generalize massFormed t s 1e-14 t_obs = M at *
  generalize padFraction s = q at *
  have r1 : |M' - c * M| ≤ q * (c * M) := by
    rw [abs_le]; constructor <;> nlinarith [hM.1, hM.2, mul_nonneg q0 (mul_pos hc0 hM0).le]
  rw [show M' * X' - c * (M * X) = (M' - c * M) * X' + c * M * (X' - X) by ring]
  refine (abs_add_le _ _).trans ?_
  rw [abs_mul, abs_mul, abs_of_pos (mul_pos hc0 hM0)]
  have r2 := mul_le_mul r1 l1 (abs_nonneg _) (mul_nonneg q0 (mul_pos hc0 hM0).le)
  have r3 := mul_le_mul_of_nonneg_left l3 (mul_pos hc0 hM0).le
  calc _ ≤ q * (c * M) * B + c * M * (B * ((m + 3) * (4 * q / β))) := add_le_add r2 r3
    _ = _ := by ring

end sed

/-! ## the theorems applied to the concrete galaxy of `Props/AgeWeights.lean` -/
section
attribute [local instance] Dtype.float64

/-- the documented inputs of the case used in `Verif.Props.AgeWeights`: times 1, 10, 100 Gyr, ages 0.01, 0.1, 1 Gyr -/
theorem case_sedInputs : SedInputs (n := 1) (m := 0) (k := 2) caseT caseA caseZ 13 0.2 :=
  ⟨caseT_mono, caseT_zero, caseT_resolved, caseA_mild, case_young, case_old, by norm_num, caseZ_mild, caseZ_lo, caseZ_hi⟩

/-- it forms 18e9 Msun in the first gap of the table and 135e9 in the second -/
theorem case_perGap : PerGap (n := 1) 1.35e11 caseT caseS 1e-14 := fun i => by
  have : caseS 2 = 2 := rfl
  fin_cases i
  · norm_num [caseT, caseS, trapezoidArea]
  · norm_num [caseT, trapezoidArea, this, show caseS 1 = 1 from rfl]

/-- a second component: 1 Msun per year at all times -/
theorem case_perGap1 : PerGap (n := 1) 9e10 caseT (fun _ => 1) 1e-14 := fun i => by
  fin_cases i <;> norm_num [caseT, trapezoidArea]

example := C142_mass_monotone (n := 1) (s := caseS) (s' := fun j => 2 * caseS j) (c := 2) caseT_mono caseT_zero (sfr_min := 1e-14) (by norm_num) (by norm_num)
  (fun j => mul_le_mul_of_nonneg_left (le_max_right _ _) (by norm_num)) 13
example := C142_mass_superposition (n := 1) (s1 := caseS) (s2 := fun _ => 1) caseT_mono caseT_zero (le_refl (1e-14:ℝ)) (fun j => (caseS_pos j).le) (fun _ => zero_le_one) case_perGap case_perGap1 13
example := C142_sed_superposition (gal_lgmet := -3) (flux := caseF) (l := (0 : Fin 2)) (B := 9) case_sedInputs (fun j => (caseS_pos j).le) (fun _ => zero_le_one) case_perGap case_perGap1
  (fun i j => by fin_cases i <;> fin_cases j <;> norm_num [caseF, abs_of_pos])

/-- SSP ages of 1, 10 and 100 Gyr, observed at 100 Gyr -/
theorem case_old_edges : SedInputs (n := 1) (m := 0) (k := 2) caseT (fun i => (0:ℝ) + i * 1) caseZ 100 0.2 := by
  have e0 : get_lg_age_bin_edges (m := 0) (fun i : Fin 3 => (0:ℝ) + i * 1) 0 = -0.5 := by rw [lg_age_edges_eq, edges_zero]; norm_num
  refine ⟨caseT_mono, caseT_zero, caseT_resolved, mildlySpaced_uniform (n := 0) 0 1 one_pos, ?_, ?_, by norm_num, caseZ_mild, caseZ_lo, caseZ_hi⟩
  · rw [e0]
    have : (10:ℝ) ^ (-0.5:ℝ) ≤ 10 ^ (0:ℝ) := Real.rpow_le_rpow_of_exponent_le (by norm_num) (by norm_num)
    norm_num [caseT] at this ⊢
    linarith
  · have := Real.rpow_pos_of_pos (show (0:ℝ) < 10 by norm_num) (get_lg_age_bin_edges (m := 0) (fun i : Fin 3 => (0:ℝ) + i * 1) (Fin.last 3))
    norm_num [caseT] at this ⊢
    exact this

/-- at least a tenth of its stars are in the age bins -/
theorem case_binned : 0.1 * massFormed (n := 1) caseT caseS 1e-14 100 ≤ massFormed (n := 1) caseT caseS 1e-14 100 - unbinned (n := 1) (m := 0) caseT caseS (fun i => (0:ℝ) + i * 1) 100 := by
  have hmax : (fun j => max 1e-14 (caseS j)) = caseS := funext fun j => by fin_cases j <;> norm_num [caseS]
  have p : (0:ℝ) < 1e-14 := by norm_num
  have T := fun k => massFormed_table (n := 1) (s := caseS) caseT_mono caseT_zero p caseT_resolved k
  simp only [hmax] at T
  have c0 := (C12_mstar_formula caseT caseS).1
  have c1 := (C12_mstar_formula caseT caseS).2 0
  have c2 := (C12_mstar_formula caseT caseS).2 1
  have T0 := T 0
  have T1 := T 1
  have T2 := T 2
  have t0 : caseT 0 = 1 := by norm_num [caseT]
  have t1 : caseT 1 = 10 := by norm_num [caseT]
  have t2 : caseT 2 = 100 := by norm_num [caseT]
  have s0 : caseS 0 = 3 := rfl
  have s1 : caseS 1 = 1 := rfl
  have s2 : caseS 2 = 2 := rfl
  simp only [Fin.castSucc_zero, Fin.succ_zero_eq_one, Fin.castSucc_one, Fin.succ_one_eq_two, t0, t1, t2, s0, s1, s2, trapezoidArea] at c0 c1 c2 T0 T1 T2
  have e0 : get_lg_age_bin_edges (m := 0) (fun i : Fin 3 => (0:ℝ) + i * 1) 0 = -0.5 := by rw [lg_age_edges_eq, edges_zero]; norm_num
  have e3 : get_lg_age_bin_edges (m := 0) (fun i : Fin 3 => (0:ℝ) + i * 1) (Fin.last 3) = 2.5 := by
    rw [lg_age_edges_eq, edges_last, C06_uniform (n := 0)]; norm_num [Fin.last]
  have h1 : (10:ℝ) ≤ birthTime 100 (-0.5) := by
    have : (10:ℝ) ^ (-0.5:ℝ) ≤ 10 ^ (0:ℝ) := Real.rpow_le_rpow_of_exponent_le (by norm_num) (by norm_num)
    rw [Real.rpow_zero] at this
    unfold birthTime
    exact le_max_of_le_right (by linarith)
  have h2 : birthTime 100 2.5 = 0.001 := by
    have : (10:ℝ) ^ (2:ℝ) ≤ 10 ^ (2.5:ℝ) := Real.rpow_le_rpow_of_exponent_le (by norm_num) (by norm_num)
    norm_num at this
    unfold birthTime
    exact max_eq_left (by norm_num; linarith)
  have m1 := massFormed_mono (s := caseS) caseT_mono caseT_zero p (by norm_num : (0:ℝ) < 10) h1
  have m2 := massFormed_before (n := 1) (s := caseS) (sfr_min := 1e-14) caseT_mono caseT_zero (τ := 0.001) (by norm_num) (by rw [t0]; norm_num)
  rw [t0] at m2
  unfold unbinned
  rw [e0, e3, h2, m2, T0, T2, c2, c1, c0]
  rw [T1, c1, c0] at m1
  linarith

example := C142_mass_scaling (n := 1) (s := caseS) (c := 7) caseT_mono caseT_zero (by norm_num) (fun j => by fin_cases j <;> norm_num [caseS]) 13
example := C142_age_weights_scaling (s := caseS) (c := 7) case_old_edges (by norm_num) (fun j => by fin_cases j <;> norm_num [caseS]) (β := 0.1) (by norm_num) case_binned
  (by norm_num [padFraction, caseS]) 1
example := C142_sed_scaling (s := caseS) (c := 7) (gal_lgmet := -3) (flux := caseF) (l := (0 : Fin 2)) (B := 9) case_old_edges (by norm_num) (fun j => by fin_cases j <;> norm_num [caseS])
  (β := 0.1) (by norm_num) case_binned (by norm_num [padFraction, caseS]) (fun i j => by fin_cases i <;> fin_cases j <;> norm_num [caseF, abs_of_pos])
end

/-! ## no monotonicity of the light

A table of two times, 1 and 10 Gyr, and the age grid `10^0.5, 10^1.5, 10^2.5` Gyr observed at `10 + √10` Gyr, so that the edge between the first two
bins is born at the geometric mid-point of the table. -/

lemma two_point_weight {s : Fin 2 → ℝ} (hs : ∀ j, 1e-14 ≤ s j) :
    let N0 := 1e9 * trapezoidArea 0.001 1 1e-14 (s 0)
    let N1 := N0 + 1e9 * trapezoidArea 1 10 (s 0) (s 1)
    0 < N0 ∧ N0 < N1 ∧
    @calc_age_weights_from_sfh_table 0 0 Dtype.float64 (fun i : Fin 2 => (10:ℝ) ^ (i : ℕ)) s (fun i : Fin 3 => (0.5:ℝ) + i * 1) (10 + Real.sqrt 10) SFR_MIN 0 =
      Real.sqrt N1 / (Real.sqrt N1 + Real.sqrt N0) ∧
    @massFormed 0 Dtype.float64 (fun i : Fin 2 => (10:ℝ) ^ (i : ℕ)) s SFR_MIN (10 + Real.sqrt 10) = N1 := by
  let _ := Dtype.float64
  intro N0 N1
  have p : (0:ℝ) < 1e-14 := by norm_num
  let t : Fin 2 → ℝ := fun i => (10:ℝ) ^ (i : ℕ)
  let a : Fin 3 → ℝ := fun i => (0.5:ℝ) + i * 1
  have ht : StrictMono t := strictMono_pow10 2
  have t0 : t 0 = 1 := by simp [t]
  have t1 : t 1 = 10 := by simp [t]
  have ht0 : (0.001:ℝ) < t 0 := by norm_num [t]
  have hr : Resolved fun i => Real.logb 10 (t i) := resolved_pow10 0
  have he : ∀ i : Fin 4, get_lg_age_bin_edges a i = i := by
    intro i
    rw [lg_age_edges_eq]
    rcases i.eq_castSucc_or_eq_last with ⟨j, hj⟩ | hj
    · subst hj
      rcases j.eq_zero_or_eq_succ with h | ⟨l, h⟩
      · subst h; rw [Fin.castSucc_zero, edges_zero]; simp [a]; norm_num
      · subst h; rw [edges_succ, C06_uniform (n := 0)]; simp [a]; ring
    · subst hj; rw [edges_last, C06_uniform (n := 0)]; simp [a]; norm_num
  have hq : (0:ℝ) < Real.sqrt 10 := Real.sqrt_pos.mpr (by norm_num)
  have hq2 : Real.sqrt 10 * Real.sqrt 10 = 10 := Real.mul_self_sqrt (by norm_num)
  have hq1 : 1 < Real.sqrt 10 := by nlinarith
  have hq10 : Real.sqrt 10 < 10 := by nlinarith
  have hmax : (fun j => max 1e-14 (s j)) = s := funext fun j => max_eq_right (hs j)
  have mass0 : massFormed t s SFR_MIN 1 = N0 := by
    have := massFormed_table (s := s) ht ht0 p hr 0
    rw [t0, hmax, (C12_mstar_formula t s).1, t0] at this
    exact this
  have mass1 : massFormed t s SFR_MIN 10 = N1 := by
    have := massFormed_table (s := s) ht ht0 p hr 1
    have h2 := (C12_mstar_formula t s).2 0
    simp only [Fin.succ_zero_eq_one, Fin.castSucc_zero] at h2
    rw [t1, hmax, h2, (C12_mstar_formula t s).1, t0, t1] at this
    exact this
  have hN0 : 0 < N0 := by rw [← mass0]; exact massFormed_pos _
  have hN1 : N0 < N1 := by
    simp only [N1, trapezoidArea]
    linarith [hs 0, hs 1]
  have massM : massFormed t s SFR_MIN (Real.sqrt 10) = Real.sqrt (N0 * N1) := by
    have h := (C20_mass_history t s SFR_MIN ht ht0 p hr).2 0 (Real.sqrt 10) (by
      rw [Fin.castSucc_zero, t0]; exact hq1.le) (by rw [Fin.succ_zero_eq_one, t1]; exact hq10.le)
    rw [Fin.castSucc_zero, Fin.succ_zero_eq_one, t0, t1, mass0, mass1] at h
    have l10 : Real.logb 10 10 = 1 := Real.logb_self_eq_one (by norm_num)
    have lq : Real.logb 10 (Real.sqrt 10) = 1 / 2 := by
      have : Real.logb 10 (Real.sqrt 10 * Real.sqrt 10) = 1 := by rw [hq2, l10]
      rw [Real.logb_mul hq.ne' hq.ne'] at this
      linarith
    rw [Real.logb_one, l10, lq] at h
    have pm := massFormed_pos (t := t) (s := s) (sfr_min := SFR_MIN) (Real.sqrt 10)
    have : Real.logb 10 (massFormed t s SFR_MIN (Real.sqrt 10) * massFormed t s SFR_MIN (Real.sqrt 10)) = Real.logb 10 (N0 * N1) := by
      rw [Real.logb_mul pm.ne' pm.ne', Real.logb_mul hN0.ne' (hN0.trans hN1).ne', h]; ring
    have h2 := Real.logb_injOn_pos (show (1:ℝ) < 10 by norm_num) (mul_pos pm pm) (mul_pos hN0 (hN0.trans hN1)) this
    rw [← h2, Real.sqrt_mul_self pm.le]
  have hb0 : birthTime (10 + Real.sqrt 10) 0 = 9 + Real.sqrt 10 := by
    unfold birthTime; rw [Real.rpow_zero, max_eq_right (by linarith)]; ring
  have hb1 : birthTime (10 + Real.sqrt 10) 1 = Real.sqrt 10 := by
    unfold birthTime; rw [Real.rpow_one, max_eq_right (by linarith)]; ring
  have hb3 : birthTime (10 + Real.sqrt 10) 3 = 0.001 := by
    unfold birthTime
    rw [show (10:ℝ) ^ (3:ℝ) = 1000 by rw [show (3:ℝ) = ((3:ℕ):ℝ) by norm_num, Real.rpow_natCast]; norm_num]
    exact max_eq_left (by linarith)
  have mbefore : massFormed t s SFR_MIN 0.001 = N0 := by
    have := massFormed_before (s := s) (sfr_min := SFR_MIN) ht ht0 (τ := 0.001) (by norm_num) (by rw [t0]; norm_num)
    rwa [t0, mass0] at this
  have mafter : ∀ τ, 10 ≤ τ → massFormed t s SFR_MIN τ = N1 := by
    intro τ hτ
    have h1 : t (Fin.last 1) = 10 := t1
    have := massFormed_after (s := s) (sfr_min := SFR_MIN) ht ht0 hr (τ := τ) (by rw [h1]; exact hτ)
    rwa [h1, mass1] at this
  refine ⟨hN0, hN1, ?_, mafter _ (by linarith)⟩
  change calc_age_weights_from_sfh_table t s a (10 + Real.sqrt 10) SFR_MIN 0 = _
  rw [age_weights_eq, he, he, he, he]
  simp only [Fin.castSucc_zero, Fin.succ_zero_eq_one, Fin.val_zero, Fin.val_one, Nat.cast_zero, Nat.cast_one, Fin.val_last]
  rw [show ((0 + 3 : ℕ) : ℝ) = 3 by norm_num, hb0, hb1, hb3, mbefore, mafter _ (by linarith), massM, Real.sqrt_mul hN0.le]
  have hsx := Real.sqrt_pos.mpr hN0
  have hsy := Real.sqrt_pos.mpr (hN0.trans hN1)
  have ex := Real.mul_self_sqrt hN0.le
  have ey := Real.mul_self_sqrt (hN0.trans hN1).le
  have hd : N1 - N0 ≠ 0 := by linarith
  rw [div_eq_div_iff hd (by positivity)]
  generalize Real.sqrt N0 = x at *
  generalize Real.sqrt N1 = y at *
  rw [← ex, ← ey]
  ring

/-- C142, finding (refutes "more star formation, more light at every wavelength"): **raising the star formation rate at one table time can lower the spectrum**.  The galaxy forms 1 Msun/yr at 1 Gyr and 1109
Msun/yr at 10 Gyr; at a wavelength where only the youngest age bin shines, raising the first rate from 1 to 4 Msun/yr dims the galaxy. -/
theorem C142_not_monotone : ∃ (t s s' : Fin 2 → ℝ) (a z : Fin 3 → ℝ) (flux : Fin 3 → Fin 3 → Fin 1 → ℝ) (t_obs scatter : ℝ),
    @SedInputs 0 0 0 Dtype.float64 t a z t_obs scatter ∧ (∀ j, 0 < s j) ∧ (∀ i j l, 0 ≤ flux i j l) ∧ (∀ j, s j ≤ s' j) ∧ s 0 < s' 0 ∧
    (@calc_rest_sed_sfh_table_lognormal_mdf 0 0 0 1 Dtype.float64 t s' 0 scatter z a flux t_obs).rest_sed 0 <
      (@calc_rest_sed_sfh_table_lognormal_mdf 0 0 0 1 Dtype.float64 t s 0 scatter z a flux t_obs).rest_sed 0 := by
  let _ := Dtype.float64
  have hq : (0:ℝ) < Real.sqrt 10 := Real.sqrt_pos.mpr (by norm_num)
  have hq2 : Real.sqrt 10 * Real.sqrt 10 = 10 := Real.mul_self_sqrt (by norm_num)
  have hq1 : 1 < Real.sqrt 10 := by nlinarith
  have hq10 : Real.sqrt 10 < 10 := by nlinarith
  have e0 : get_lg_age_bin_edges (m := 0) (fun i : Fin 3 => (0.5:ℝ) + i * 1) 0 = 0 := by rw [lg_age_edges_eq, edges_zero]; norm_num
  have H : SedInputs (n := 0) (m := 0) (k := 0) (fun i : Fin 2 => (10:ℝ) ^ (i : ℕ)) (fun i : Fin 3 => (0.5:ℝ) + i * 1) (fun i : Fin 3 => (-1:ℝ) + i * 1) (10 + Real.sqrt 10) 0.2 := by
    refine ⟨strictMono_pow10 2, by norm_num, resolved_pow10 0, mildlySpaced_uniform (n := 0) 0.5 1 one_pos, ?_, ?_, by norm_num,
      mildlySpaced_uniform (n := 0) (-1) 1 one_pos, by norm_num, by norm_num⟩
    · rw [e0]; norm_num; linarith
    · rw [lg_age_edges_eq, edges_last, C06_uniform (n := 0)]
      norm_num [Fin.last]
      linarith
  have key : ∀ s : Fin 2 → ℝ, (∀ j, 1e-14 ≤ s j) →
      (calc_rest_sed_sfh_table_lognormal_mdf (n := 0) (m := 0) (k := 0) (fun i : Fin 2 => (10:ℝ) ^ (i : ℕ)) s 0 0.2 (fun i : Fin 3 => (-1:ℝ) + i * 1) (fun i : Fin 3 => (0.5:ℝ) + i * 1)
        (fun _ j (_ : Fin 1) => if j = 0 then 1 else 0) (10 + Real.sqrt 10)).rest_sed 0 =
      massFormed (fun i : Fin 2 => (10:ℝ) ^ (i : ℕ)) s SFR_MIN (10 + Real.sqrt 10) *
        calc_age_weights_from_sfh_table (n := 0) (m := 0) (fun i : Fin 2 => (10:ℝ) ^ (i : ℕ)) s (fun i : Fin 3 => (0.5:ℝ) + i * 1) (10 + Real.sqrt 10) SFR_MIN 0 := by
    intro s _
    have hmet := C21_lgmet_weights_prob_mild_partial 0 0.2 H.width (fun i : Fin 3 => (-1:ℝ) + i * 1) H.mets H.low H.high
    rw [sed_raw H s 0, C20_weight_is_mass_share]
    have hu : ∀ j : Fin 3, unitLight (k := 0) (m := 0) 0 0.2 (fun i : Fin 3 => (-1:ℝ) + i * 1) (fun _ j (_ : Fin 1) => if j = 0 then 1 else 0) 0 j = if j = 0 then 1 else 0 := fun j => by
      unfold unitLight
      rw [← Finset.sum_mul, hmet.2, one_mul]
    rw [Finset.sum_congr rfl fun j _ => by rw [hu j], Finset.sum_eq_single (0 : Fin 3) (fun j _ hj => by rw [if_neg hj, mul_zero]) (fun h => absurd (Finset.mem_univ _) h), if_pos rfl]
    unfold rawMass SFR_MIN
    rw [Fin.castSucc_zero]
    ring
  let s : Fin 2 → ℝ := ![1 - 1e-14, 1108.889 + 1e-14]
  let s' : Fin 2 → ℝ := ![4 - 1e-14, 1108.889 + 1e-14]
  have hs : ∀ j, 1e-14 ≤ s j := fun j => by fin_cases j <;> norm_num [s]
  have hs' : ∀ j, 1e-14 ≤ s' j := fun j => by fin_cases j <;> norm_num [s']
  refine ⟨_, s, s', _, _, fun _ j _ => if j = 0 then 1 else 0, _, _, H, fun j => lt_of_lt_of_le (by norm_num) (hs j), fun i j l => by positivity, fun j => by fin_cases j <;> norm_num [s, s'], by norm_num [s, s'], ?_⟩
  rw [key s hs, key s' hs']
  obtain ⟨a1, a2, a3, a4⟩ := two_point_weight hs
  obtain ⟨b1, b2, b3, b4⟩ := two_point_weight hs'
  rw [a3, a4, b3, b4]
  have v0 : 1e9 * trapezoidArea 0.001 1 1e-14 (s 0) = 499500000 := by norm_num [s, trapezoidArea]
  have v1 : 1e9 * trapezoidArea 1 10 (s 0) (s 1) = 4994500500000 := by norm_num [s, trapezoidArea]
  have v0' : 1e9 * trapezoidArea 0.001 1 1e-14 (s' 0) = 1998000000 := by norm_num [s', trapezoidArea]
  have v1' : 1e9 * trapezoidArea 1 10 (s' 0) (s' 1) = 5008000500000 := by norm_num [s', trapezoidArea]
  rw [v0, v1, v0', v1']
  have r : Real.sqrt (499500000 + 4994500500000) = 100 * Real.sqrt 499500000 := by
    rw [show (499500000 + 4994500500000 : ℝ) = 100 ^ 2 * 499500000 by norm_num, Real.sqrt_mul (by positivity), Real.sqrt_sq (by norm_num)]
  have r' : Real.sqrt (1998000000 + 5008000500000) ≤ 50.08 * Real.sqrt 1998000000 := by
    rw [show 50.08 * Real.sqrt 1998000000 = Real.sqrt (50.08 ^ 2 * 1998000000) by rw [Real.sqrt_mul (by positivity), Real.sqrt_sq (by norm_num)]]
    exact Real.sqrt_le_sqrt (by norm_num)
  have q : 0 < Real.sqrt 499500000 := Real.sqrt_pos.mpr (by norm_num)
  have q' : 0 < Real.sqrt 1998000000 := Real.sqrt_pos.mpr (by norm_num)
  have Q' : 0 ≤ Real.sqrt (1998000000 + 5008000500000) := Real.sqrt_nonneg _
  have l : Real.sqrt (499500000 + 4994500500000) / (Real.sqrt (499500000 + 4994500500000) + Real.sqrt 499500000) = 100 / 101 := by
    rw [r]; field_simp; norm_num
  have l' : Real.sqrt (1998000000 + 5008000500000) / (Real.sqrt (1998000000 + 5008000500000) + Real.sqrt 1998000000) ≤ 50.08 / 51.08 := by
    rw [div_le_div_iff₀ (by positivity) (by norm_num)]
    linarith
  rw [l]
  calc _ ≤ (1998000000 + 5008000500000) * (50.08 / 51.08) := mul_le_mul_of_nonneg_left l' (by norm_num)
    _ < _ := by norm_num

end Dsps.Props
