import Verif.Props.RefineSfh
import Verif.Props.Smooth

/-! C140, continued: SEDs computed from tabulated histories converge to the SED of the histories when the table is refined. -/
namespace Dsps.Props
open Dsps.Utils Dsps.Lemmas Dsps.StellarAgeWeights Dsps.MetallicityWeights Dsps.SspWeights Dsps.Constants Jnp Spec Set Sfh Filter Topology
open scoped BigOperators

variable {m k w : ℕ} {S Z : ℝ → ℝ} {sfr_min T t_obs : ℝ}

/-! **Specification.** the spectrum of a galaxy with star formation history `S` and metallicity history -/
namespace Sfh
/-- the spectrum of the mass formed by `t_obs`, each age bin with its share `birth j` of the mass and the metallicity distribution `mdf j` -/
noncomputable def sed (S : ℝ → ℝ) (sfr_min t_obs : ℝ) (birth : Fin (m + 3) → ℝ) (mdf : Fin (m + 3) → Fin (k + 3) → ℝ)
    (flux : Fin (k + 3) → Fin (m + 3) → Fin w → ℝ) (l : Fin w) : ℝ :=
  mass S sfr_min t_obs * ∑ i, ∑ j, mdf j i * birth j * flux i j l

/-- share of the mass in age bin `j` of the age grid `a` (bins delimited by the package's bin edges) -/
noncomputable def binShare (S : ℝ → ℝ) (t_obs : ℝ) (a : Fin (m + 3) → ℝ) (j : Fin (m + 3)) : ℝ :=
  share S 1e-14 t_obs (get_lg_age_bin_edges a j.castSucc) (get_lg_age_bin_edges a j.succ) (get_lg_age_bin_edges a 0)
    (get_lg_age_bin_edges a (Fin.last (m + 3)))

/-- tables up to `T` with no gap wider than `δ` -/
def Fine (T δ : ℝ) : Set (Σ n : ℕ, Fin (n + 2) → ℝ) :=
  {x | StrictMono x.2 ∧ 0.001 < x.2 0 ∧ x.2 (Fin.last (x.1 + 1)) = T ∧ Mesh δ x.2}

/-- refinement of the table -/
def refine (T : ℝ) : Filter (Σ n : ℕ, Fin (n + 2) → ℝ) := ⨅ δ ∈ Ioi (0:ℝ), 𝓟 (Fine T δ)
end Sfh

lemma refine_basis (T : ℝ) : (Sfh.refine T).HasBasis (fun δ : ℝ => 0 < δ) (Fine T) := by
  refine hasBasis_biInf_principal (s := Fine T) (S := Ioi (0:ℝ)) ?_ ⟨1, by norm_num⟩
  intro a ha b hb
  refine ⟨min a b, mem_Ioi.mpr (lt_min ha hb), ?_, ?_⟩
  · exact fun x hx => ⟨hx.1, hx.2.1, hx.2.2.1, hx.2.2.2.1.trans (min_le_left _ _), fun i => (hx.2.2.2.2 i).trans (min_le_left _ _)⟩
  · exact fun x hx => ⟨hx.1, hx.2.1, hx.2.2.1, hx.2.2.2.1.trans (min_le_right _ _), fun i => (hx.2.2.2.2 i).trans (min_le_right _ _)⟩

lemma refine_tendsto {g : (Σ n : ℕ, Fin (n + 2) → ℝ) → ℝ} {c : ℝ} : Tendsto g (Sfh.refine T) (𝓝 c) ↔
    ∀ ε > 0, ∃ δ > 0, ∀ (n : ℕ) (t : Fin (n + 2) → ℝ), StrictMono t → 0.001 < t 0 → t (Fin.last (n + 1)) = T → Mesh δ t → |g ⟨n, t⟩ - c| ≤ ε := by
  rw [(refine_basis T).tendsto_iff Metric.nhds_basis_closedBall]
  constructor
  · intro h ε hε
    obtain ⟨δ, hδ, h⟩ := h ε hε
    exact ⟨δ, hδ, fun n t a b c d => h ⟨n, t⟩ ⟨a, b, c, d⟩⟩
  · intro h ε hε
    obtain ⟨δ, hδ, h⟩ := h ε hε
    exact ⟨δ, hδ, fun x hx => h x.1 x.2 hx.1 hx.2.1 hx.2.2.1 hx.2.2.2⟩

/-- a table of a continuous quantity, interpolated in log time, is close to the quantity -/
lemma interp_log_near [Dtype] {n : ℕ} {t : Fin (n + 2) → ℝ} {ω δ τ : ℝ} (hω : Varies ω δ T Z) (ht : StrictMono t) (ht0 : 0.001 < t 0)
    (hT : t (Fin.last (n + 1)) = T) (hδ : Mesh δ t) (hτ : τ ∈ Icc 0.001 T) :
    |interp (log10 τ) (fun i => log10 (t i)) (fun i => Z (t i)) - Z τ| ≤ ω := by
  have hm := Mesh.mem ht ht0 hT.le
  have hp : 0 < τ := lt_of_lt_of_le (by norm_num) hτ.1
  have hl := (lgt_strictMono ht ht0).monotone
  rcases lt_or_ge τ (t 0) with h | h
  · have e : interp (log10 τ) (fun i => log10 (t i)) (fun i => Z (t i)) = _ := interp_of_lt hl (log10_lt hp h)
    rw [e]
    refine hω _ (hm 0) _ hτ ?_
    rw [abs_of_pos (sub_pos.mpr h)]
    linarith [hδ.1, hτ.1]
  · have h1 : τ ≤ t (Fin.last (n + 1)) := hτ.2.trans hT.ge
    have q0 : log10 (t 0) ≤ log10 τ := log10_le (t_pos ht ht0 0) h
    have q1 : log10 τ ≤ log10 (t (Fin.last (n + 1))) := log10_le hp h1
    have e : interp (log10 τ) (fun i => log10 (t i)) (fun i => Z (t i)) = _ := interp_of_mem q0 q1
    obtain ⟨s, s0, s1, hc⟩ := interpBody_convex hl q0 q1
    have c0 := interpCell_left hl (x := log10 τ) q0
    have c1 := interpCell_right hl (x := log10 τ) q1
    rw [e, hc]
    generalize interpCell (fun i => log10 (t i)) (log10 τ) = i at *
    have d0 : t i.castSucc ≤ τ := by by_contra h; exact absurd c0 (not_le.mpr (log10_lt hp (not_le.mp h)))
    have d1 : τ ≤ t i.succ := by by_contra h; exact absurd c1 (not_le.mpr (log10_lt (t_pos ht ht0 _) (not_le.mp h)))
    have g := hδ.2 i
    have u0 := abs_le.mp (hω _ (hm i.castSucc) _ hτ (by rw [abs_le]; constructor <;> linarith))
    have u1 := abs_le.mp (hω _ (hm i.succ) _ hτ (by rw [abs_le]; constructor <;> linarith))
    rw [abs_le]
    constructor <;> nlinarith [u0.1, u0.2, u1.1, u1.2]

lemma mass_tendsto [Dtype] (hs : 0 < sfr_min) (hS : ContinuousOn S (Icc 0.001 T)) {τ : ℝ} (hτ : τ ∈ Icc 0.001 T) :
    Tendsto (fun x : Σ n : ℕ, Fin (n + 2) → ℝ => massFormed x.2 (fun i => S (x.2 i)) sfr_min τ) (Sfh.refine T) (𝓝 (mass S sfr_min τ)) := by
  rw [refine_tendsto]
  intro ε hε
  obtain ⟨δ, hδ, h⟩ := C140_mass_converges hs (hτ.1.trans hτ.2) hS hε
  exact ⟨δ, hδ, fun n t a b c d => h n t a b c d τ hτ⟩

section
variable {a : Fin (m + 3) → ℝ}

/-- some of the mass is born in the range of the age grid -/
def Populated (S : ℝ → ℝ) (t_obs : ℝ) (a : Fin (m + 3) → ℝ) : Prop :=
  mass S 1e-14 (birthTime t_obs (get_lg_age_bin_edges a (Fin.last (m + 3)))) < mass S 1e-14 (birthTime t_obs (get_lg_age_bin_edges a 0))

lemma age_tendsto [Dtype] (hS : ContinuousOn S (Icc 0.001 T)) (hobs : t_obs ∈ Icc 0.001 T) (he : Monotone (get_lg_age_bin_edges a))
    (hpos : Populated S t_obs a) (j : Fin (m + 3)) :
    Tendsto (fun x : Σ n : ℕ, Fin (n + 2) → ℝ => calc_age_weights_from_sfh_table x.2 (fun i => S (x.2 i)) a t_obs SFR_MIN j) (Sfh.refine T)
      (𝓝 (binShare S t_obs a j)) := by
  rw [refine_tendsto]
  intro ε hε
  obtain ⟨δ, hδ, h⟩ := C140_age_weights_converge (sfr_min := 1e-14) (by norm_num) hS hobs.1 hobs.2 he hpos hε
  exact ⟨δ, hδ, fun n t a b c d => h n t a b c d j⟩

lemma share_sum (hpos : Populated S t_obs a) : ∑ j, binShare S t_obs a j = 1 := by
  unfold binShare share
  rw [← Finset.sum_div, sum_telescope' (fun i => mass S 1e-14 (birthTime t_obs (get_lg_age_bin_edges a i)))]
  exact div_self (sub_pos.mpr hpos).ne'

lemma joint_tendsto [Dtype] {gal_lgmet scatter : ℝ} {z : Fin (k + 3) → ℝ} (hS : ContinuousOn S (Icc 0.001 T)) (hobs : t_obs ∈ Icc 0.001 T)
    (he : Monotone (get_lg_age_bin_edges a)) (hpos : Populated S t_obs a) (hmet : ∑ i, calc_lgmet_weights_from_lognormal_mdf gal_lgmet scatter z i = 1)
    (i : Fin (k + 3)) (j : Fin (m + 3)) :
    Tendsto (fun x : Σ n : ℕ, Fin (n + 2) → ℝ => (calc_ssp_weights_sfh_table_lognormal_mdf x.2 (fun i => S (x.2 i)) gal_lgmet scatter z a t_obs).weights i j)
      (Sfh.refine T) (𝓝 (calc_lgmet_weights_from_lognormal_mdf gal_lgmet scatter z i * binShare S t_obs a j)) := by
  simp only [calc_ssp_weights_sfh_table_lognormal_mdf, sum2_eq]
  have hn : ∀ i j, Tendsto (fun x : Σ n : ℕ, Fin (n + 2) → ℝ => calc_lgmet_weights_from_lognormal_mdf gal_lgmet scatter z i *
      calc_age_weights_from_sfh_table x.2 (fun i => S (x.2 i)) a t_obs SFR_MIN j) (Sfh.refine T)
      (𝓝 (calc_lgmet_weights_from_lognormal_mdf gal_lgmet scatter z i * binShare S t_obs a j)) := fun i j =>
    tendsto_const_nhds.mul (age_tendsto hS hobs he hpos j)
  have hd := tendsto_finsetSum Finset.univ fun i _ => tendsto_finsetSum Finset.univ fun j _ => hn i j
  rw [← Finset.sum_mul_sum, hmet, share_sum hpos, one_mul] at hd
  have := (hn i j).div hd one_ne_zero
  rwa [div_one] at this

/-- C140: **convergence of the SED** (one metallicity): for every continuous star formation history the SED computed from the history's values at
table times tends to the SED of the history when the table's widest gap tends to zero. -/
theorem C140_sed_converges [Dtype] {gal_lgmet scatter : ℝ} {z : Fin (k + 3) → ℝ} {flux : Fin (k + 3) → Fin (m + 3) → Fin w → ℝ} (hs : 0 < sfr_min)
    (hS : ContinuousOn S (Icc 0.001 T)) (hobs : t_obs ∈ Icc 0.001 T) (he : Monotone (get_lg_age_bin_edges a)) (hpos : Populated S t_obs a)
    (hmet : ∑ i, calc_lgmet_weights_from_lognormal_mdf gal_lgmet scatter z i = 1) (l : Fin w) {ε : ℝ} (hε : 0 < ε) :
    ∃ δ > 0, ∀ (n : ℕ) (t : Fin (n + 2) → ℝ), StrictMono t → 0.001 < t 0 → t (Fin.last (n + 1)) = T → Mesh δ t →
      |(calc_rest_sed_sfh_table_lognormal_mdf t (fun i => S (t i)) gal_lgmet scatter z a flux t_obs sfr_min).rest_sed l -
        sed S sfr_min t_obs (binShare S t_obs a) (fun _ => calc_lgmet_weights_from_lognormal_mdf gal_lgmet scatter z) flux l| ≤ ε := by
  refine (refine_tendsto (g := fun x => (calc_rest_sed_sfh_table_lognormal_mdf x.2 (fun i => S (x.2 i)) gal_lgmet scatter z a flux t_obs sfr_min).rest_sed l)).mp ?_ ε hε
  simp only [(C25_sed_formula _ _ (fun _ => 0) gal_lgmet scatter z a flux t_obs sfr_min l).1]
  exact (mass_tendsto hs hS hobs).mul (tendsto_finsetSum _ fun i _ => tendsto_finsetSum _ fun j _ =>
    (joint_tendsto hS hobs he hpos hmet i j).mul tendsto_const_nhds)

lemma joint_met_tendsto [Dtype] {scatter : ℝ} {z : Fin (k + 3) → ℝ} (hS : ContinuousOn S (Icc 0.001 T)) (hZ : ContinuousOn Z (Icc 0.001 T)) (hobs : t_obs ∈ Icc 0.001 T)
    (he : Monotone (get_lg_age_bin_edges a)) (hpos : Populated S t_obs a) (hsc : 0 < scatter) (hz : MildlySpaced z) (hlo : -10 < z 0) (hhi : z (Fin.last (k + 2)) < 10)
    (i : Fin (k + 3)) (j : Fin (m + 3)) :
    Tendsto (fun x : Σ n : ℕ, Fin (n + 2) → ℝ => (calc_ssp_weights_sfh_table_met_table x.2 (fun i => S (x.2 i)) (fun i => Z (x.2 i)) scatter z a t_obs).weights i j)
      (Sfh.refine T) (𝓝 (calc_lgmet_weights_from_lognormal_mdf (Z (birthTime t_obs (a j))) scatter z i * binShare S t_obs a j)) := by
  simp only [calc_ssp_weights_sfh_table_met_table, sum2_eq]
  have hZt : ∀ j, Tendsto (fun x : Σ n : ℕ, Fin (n + 2) → ℝ => calc_lgmet_at_ssp_lgage_table x.2 (fun i => Z (x.2 i)) a t_obs j) (Sfh.refine T)
      (𝓝 (Z (birthTime t_obs (a j)))) := by
    intro j
    rw [refine_tendsto]
    intro ε hε
    obtain ⟨δ, hδ, h⟩ := varies_of_continuous hZ hε
    refine ⟨δ, hδ, fun n t p q r u => ?_⟩
    simp only [calc_lgmet_at_ssp_lgage_table, get_lgt_birth_eq]
    exact interp_log_near (h δ le_rfl) p q r u (birth_mem hobs.1 hobs.2)
  have hw : ∀ i j, Tendsto (fun x : Σ n : ℕ, Fin (n + 2) → ℝ => calc_lgmet_weights_from_lgmet_table x.2 (fun i => Z (x.2 i)) scatter z a t_obs i j) (Sfh.refine T)
      (𝓝 (calc_lgmet_weights_from_lognormal_mdf (Z (birthTime t_obs (a j))) scatter z i / ((m + 3 : ℕ) : ℝ))) := by
    intro i j
    have hc : ContinuousAt (fun y => calc_lgmet_weights_from_lognormal_mdf y scatter z i) (Z (birthTime t_obs (a j))) := by
      have h1 := (C90_lognormal_mdf_smooth z hz hlo hhi i).continuousOn.continuousAt (x := (Z (birthTime t_obs (a j)), scatter))
        ((isOpen_lt continuous_const continuous_snd).mem_nhds hsc)
      exact ContinuousAt.comp (f := fun y => ((y, scatter) : ℝ × ℝ)) h1 (by fun_prop)
    exact ((hc.tendsto.comp (hZt j)).div_const _)
  have hn := fun i j => (hw i j).mul (age_tendsto hS hobs he hpos j)
  have hd := tendsto_finsetSum Finset.univ fun i _ => tendsto_finsetSum Finset.univ fun j _ => hn i j
  have hm : (0:ℝ) < ((m + 3 : ℕ) : ℝ) := by positivity
  have e : ∑ i, ∑ j, calc_lgmet_weights_from_lognormal_mdf (Z (birthTime t_obs (a j))) scatter z i / ((m + 3 : ℕ) : ℝ) * binShare S t_obs a j = 1 / ((m + 3 : ℕ) : ℝ) := by
    rw [Finset.sum_comm]
    have : ∀ j, ∑ i, calc_lgmet_weights_from_lognormal_mdf (Z (birthTime t_obs (a j))) scatter z i / ((m + 3 : ℕ) : ℝ) * binShare S t_obs a j =
        1 / ((m + 3 : ℕ) : ℝ) * binShare S t_obs a j := by
      intro j
      rw [← Finset.sum_mul, ← Finset.sum_div, (C21_lgmet_weights_prob_mild_partial _ scatter hsc z hz hlo hhi).2]
    simp only [this, ← Finset.mul_sum, share_sum hpos, mul_one]
  rw [e] at hd
  have := (hn i j).div hd (by positivity)
  refine this.congr' ?_ |>.trans ?_
  · exact Eventually.of_forall fun _ => rfl
  · rw [show calc_lgmet_weights_from_lognormal_mdf (Z (birthTime t_obs (a j))) scatter z i / ((m + 3 : ℕ) : ℝ) * binShare S t_obs a j / (1 / ((m + 3 : ℕ) : ℝ)) =
      calc_lgmet_weights_from_lognormal_mdf (Z (birthTime t_obs (a j))) scatter z i * binShare S t_obs a j by field_simp]

/-- C140: **convergence of the SED** (metallicity history): as above for continuous star formation and metallicity histories; stars of age `10^a j` get
the metallicity distribution around the metallicity at their birth. -/
theorem C140_sed_met_history_converges [Dtype] {scatter : ℝ} {z : Fin (k + 3) → ℝ} {flux : Fin (k + 3) → Fin (m + 3) → Fin w → ℝ} (hs : 0 < sfr_min)
    (hS : ContinuousOn S (Icc 0.001 T)) (hZ : ContinuousOn Z (Icc 0.001 T)) (hobs : t_obs ∈ Icc 0.001 T) (he : Monotone (get_lg_age_bin_edges a))
    (hpos : Populated S t_obs a) (hsc : 0 < scatter) (hz : MildlySpaced z) (hlo : -10 < z 0) (hhi : z (Fin.last (k + 2)) < 10) (l : Fin w)
    {ε : ℝ} (hε : 0 < ε) :
    ∃ δ > 0, ∀ (n : ℕ) (t : Fin (n + 2) → ℝ), StrictMono t → 0.001 < t 0 → t (Fin.last (n + 1)) = T → Mesh δ t →
      |(calc_rest_sed_sfh_table_met_table t (fun i => S (t i)) (fun i => Z (t i)) scatter z a flux t_obs sfr_min).rest_sed l -
        sed S sfr_min t_obs (binShare S t_obs a) (fun j => calc_lgmet_weights_from_lognormal_mdf (Z (birthTime t_obs (a j))) scatter z) flux l| ≤ ε := by
  refine (refine_tendsto (g := fun x => (calc_rest_sed_sfh_table_met_table x.2 (fun i => S (x.2 i)) (fun i => Z (x.2 i)) scatter z a flux t_obs sfr_min).rest_sed l)).mp ?_ ε hε
  simp only [(C25_sed_formula _ _ _ 0 scatter z a flux t_obs sfr_min l).2]
  refine (mass_tendsto hs hS hobs).mul (tendsto_finsetSum _ fun i _ => tendsto_finsetSum _ fun j _ => (joint_met_tendsto hS hZ hobs he hpos hsc hz hlo hhi i j).mul tendsto_const_nhds)

/-- C140: the condition `Populated` in terms of the inputs: the youngest bin edge is younger than the oldest and younger than the universe. -/
theorem C140_populated_iff (hS : ContinuousOn S (Icc 0.001 T)) (hobs : t_obs ∈ Icc 0.001 T) :
    Populated S t_obs a ↔ get_lg_age_bin_edges a 0 < get_lg_age_bin_edges a (Fin.last (m + 3)) ∧ (10:ℝ) ^ get_lg_age_bin_edges a 0 < t_obs - 0.001 := by
  unfold Populated
  set x := get_lg_age_bin_edges a 0
  set y := get_lg_age_bin_edges a (Fin.last (m + 3))
  have key : ∀ p ∈ Icc 0.001 T, ∀ q ∈ Icc 0.001 T, p < q → mass S 1e-14 p < mass S 1e-14 q := by
    intro p hp q hq h
    rw [← sub_pos, mass_sub hS hp hq]
    have : 0 < ∫ x in p..q, max 1e-14 (S x) :=
      intervalIntegral.intervalIntegral_pos_of_pos_on (floor_int hS hp hq) (fun x _ => lt_max_of_lt_left (by norm_num)) h
    positivity
  have iff : mass S 1e-14 (birthTime t_obs y) < mass S 1e-14 (birthTime t_obs x) ↔ birthTime t_obs y < birthTime t_obs x := by
    refine ⟨fun h => ?_, key _ (birth_mem hobs.1 hobs.2) _ (birth_mem hobs.1 hobs.2)⟩
    by_contra hc
    rcases (not_lt.mp hc).lt_or_eq with g | g
    · exact lt_asymm h (key _ (birth_mem hobs.1 hobs.2) _ (birth_mem hobs.1 hobs.2) g)
    · rw [g] at h; exact lt_irrefl _ h
  rw [iff]
  unfold birthTime
  constructor
  · intro h
    have h1 : 0.001 < t_obs - (10:ℝ) ^ x := by
      by_contra hc
      rw [max_eq_left (not_lt.mp hc)] at h
      exact absurd h (not_lt.mpr (le_max_left _ _))
    refine ⟨?_, by linarith⟩
    rw [max_eq_right h1.le] at h
    have h2 := lt_of_le_of_lt (le_max_right _ _) h
    have h3 : (10:ℝ) ^ x < (10:ℝ) ^ y := by linarith
    exact (Real.rpow_lt_rpow_left_iff (by norm_num)).mp h3
  · rintro ⟨h1, h2⟩
    have h3 : (10:ℝ) ^ x < (10:ℝ) ^ y := (Real.rpow_lt_rpow_left_iff (by norm_num)).mpr h1
    rw [max_eq_right (show 0.001 ≤ t_obs - (10:ℝ) ^ x by linarith)]
    exact max_lt (by linarith) (by linarith)

/-- C140: tables as fine as wished exist. -/
theorem C140_tables_exist {δ : ℝ} (hT : 0.001 < T) (hδ : 0 < δ) :
    ∃ (n : ℕ) (t : Fin (n + 2) → ℝ), StrictMono t ∧ 0.001 < t 0 ∧ t (Fin.last (n + 1)) = T ∧ Mesh δ t := by
  have hp := sub_pos.mpr hT
  obtain ⟨n, hn⟩ := exists_nat_gt ((T - 0.001) / δ)
  have hn0 : (0:ℝ) < (n:ℝ) + 2 := by positivity
  have hstep : (T - 0.001) / ((n:ℝ) + 2) ≤ δ := by
    rw [div_lt_iff₀ hδ] at hn
    rw [div_le_iff₀ hn0]
    nlinarith
  refine ⟨n, fun i => 0.001 + (T - 0.001) / ((n:ℝ) + 2) * ((i:ℕ) + 1), ?_, ?_, ?_, ?_, ?_⟩
  · intro i j h
    have : ((i:ℕ):ℝ) < ((j:ℕ):ℝ) := by exact_mod_cast h
    have hq : 0 < (T - 0.001) / ((n:ℝ) + 2) := by positivity
    simp only
    nlinarith
  · simp only [Fin.val_zero]
    have hq : 0 < (T - 0.001) / ((n:ℝ) + 2) := by positivity
    push_cast; linarith
  · simp only [Fin.val_last]
    push_cast
    field_simp
    ring
  · simp only [Fin.val_zero]; push_cast; linarith
  · intro i
    simp only [Fin.val_succ, Fin.val_castSucc]
    push_cast
    linarith

end

section
attribute [local instance] Dtype.float64

lemma caseA_populated : Populated (m := 0) (fun x => 1 + x) 13 caseA :=
  (C140_populated_iff (T := 13.8) (by fun_prop) ⟨by norm_num, by norm_num⟩).mpr ⟨C17_age_edges_mono (m := 0) caseA caseA_mild (by decide), by have := case_young; norm_num [caseT] at this ⊢; linarith⟩

/-- case: a star formation rate rising linearly, observed at 13 Gyr -/
example := C140_sed_converges (m := 0) (k := 2) (w := 1) (S := fun x => 1 + x) (T := 13.8) (t_obs := 13) (sfr_min := 1e-14) (a := caseA) (gal_lgmet := -1) (scatter := 0.3)
  (z := caseZ) (flux := fun _ _ _ => 1) (by norm_num) (by fun_prop) ⟨by norm_num, by norm_num⟩ caseA_edges caseA_populated
  (C21_lgmet_weights_sum _ _ (by norm_num) _ (by norm_num) (by norm_num)) 0 (ε := 1 / 100) (by norm_num)
example := C140_sed_met_history_converges (m := 0) (k := 2) (w := 1) (S := fun x => 1 + x) (Z := fun x => x / 10 - 2) (T := 13.8) (t_obs := 13) (sfr_min := 1e-14) (a := caseA) (scatter := 0.3)
  (z := caseZ) (flux := fun _ _ _ => 1) (by norm_num) (by fun_prop) (by fun_prop) ⟨by norm_num, by norm_num⟩ caseA_edges caseA_populated (by norm_num) caseZ_mild caseZ_lo caseZ_hi 0
  (ε := 1 / 100) (by norm_num)
example := C140_age_weights_converge (m := 0) (S := fun x => 1 + x) (T := 13.8) (t_obs := 13) (sfr_min := 1e-14) (a := caseA) (by norm_num) (by fun_prop) (by norm_num) (by norm_num)
  caseA_edges caseA_populated (ε := 1 / 100) (by norm_num)
example := C140_mass_converges (S := fun x => 1 + x) (T := 13.8) (sfr_min := 1e-14) (by norm_num) (by norm_num) (by fun_prop) (ε := 1) (by norm_num)
/-- case: the rate changes by a tenth over a tenth of a Gyr -/
example : Varies 0.1 0.1 13.8 (fun x => 1 + x) := fun x _ y _ h => by
  rw [show 1 + x - (1 + y) = x - y by ring]; exact h
end

end Dsps.Props
