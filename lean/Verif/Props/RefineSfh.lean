import Verif.Props.SspWeights
import Verif.Lemmas.Quadrature

/-! C140: age weights, mass formed and SEDs computed from a tabulated star formation history converge to those of the history itself
when the table is refined (`/repo/dsps/sed/stellar_age_weights.py`, `/repo/dsps/sed/stellar_sed.py`, `/repo/dsps/utils.py:cumulative_mstar_formed`). -/
namespace Dsps.Props
open Dsps.Utils Dsps.Lemmas Dsps.StellarAgeWeights Dsps.Constants Jnp Spec Set
open scoped BigOperators

variable {n m : ℕ}

/-! **Specification.** the quantities of a star formation history `S` (Msun/yr, time in Gyr) -/
namespace Sfh
/-- mass formed between the first star formation (0.001 Gyr) and `τ`, in Msun; the star formation rate is never below `sfr_min` -/
noncomputable def mass (S : ℝ → ℝ) (sfr_min τ : ℝ) : ℝ := 1e9 * ∫ x in (0.001:ℝ)..τ, max sfr_min (S x)

/-- share of the mass born between the birth times of ages `10^lo` and `10^hi` in the mass born between those of `10^first` and `10^last` -/
noncomputable def share (S : ℝ → ℝ) (sfr_min t_obs lo hi first last : ℝ) : ℝ :=
  (mass S sfr_min (birthTime t_obs lo) - mass S sfr_min (birthTime t_obs hi)) /
  (mass S sfr_min (birthTime t_obs first) - mass S sfr_min (birthTime t_obs last))

/-- the table `t` has no gap wider than `δ`, from the first star formation on -/
def Mesh (δ : ℝ) (t : Fin (n + 2) → ℝ) : Prop := t 0 - 0.001 ≤ δ ∧ ∀ i : Fin (n + 1), t i.succ - t i.castSucc ≤ δ

/-- `S` changes by at most `ω` between times at most `δ` apart, from 0.001 to `T` -/
def Varies (ω δ T : ℝ) (S : ℝ → ℝ) : Prop := ∀ x ∈ Icc 0.001 T, ∀ y ∈ Icc 0.001 T, |x - y| ≤ δ → |S x - S y| ≤ ω
end Sfh
open Sfh

/-- trapezoid versus integral on one cell -/
lemma cell_modulus {F : ℝ → ℝ} {a b ω : ℝ} (hab : a ≤ b) (hF : ContinuousOn F (Icc a b)) (hω : ∀ x ∈ Icc a b, |F x - F a| ≤ ω ∧ |F x - F b| ≤ ω) :
    |trapezoidArea a b (F a) (F b) - ∫ x in a..b, F x| ≤ ω * (b - a) := by
  have hi : IntervalIntegrable F MeasureTheory.volume a b := (hF.mono (by rw [uIcc_of_le hab])).intervalIntegrable
  have e : trapezoidArea a b (F a) (F b) - ∫ x in a..b, F x = ∫ x in a..b, ((F a + F b) / 2 - F x) := by
    rw [intervalIntegral.integral_sub (by simp) hi]
    simp [trapezoidArea]; ring
  rw [e]
  have := intervalIntegral.norm_integral_le_of_norm_le_const (a := a) (b := b) (C := ω) (f := fun x => (F a + F b) / 2 - F x) (by
    intro x hx
    rw [uIoc_of_le hab] at hx
    obtain ⟨h1, h2⟩ := hω x ⟨hx.1.le, hx.2⟩
    rw [Real.norm_eq_abs]
    rw [abs_le] at *
    constructor <;> linarith [h1.1, h1.2, h2.1, h2.2])
  rwa [Real.norm_eq_abs, abs_of_nonneg (sub_nonneg.mpr hab)] at this

section mass
variable {S : ℝ → ℝ} {sfr_min T B ω δ : ℝ}

lemma floor_cont (hS : ContinuousOn S (Icc 0.001 T)) : ContinuousOn (fun x => max sfr_min (S x)) (Icc 0.001 T) :=
  continuousOn_const.sup hS

lemma floor_int (hS : ContinuousOn S (Icc 0.001 T)) {a b : ℝ} (ha : a ∈ Icc 0.001 T) (hb : b ∈ Icc 0.001 T) :
    IntervalIntegrable (fun x => max sfr_min (S x)) MeasureTheory.volume a b :=
  ((floor_cont hS).mono (uIcc_subset_Icc ha hb)).intervalIntegrable

lemma mass_sub (hS : ContinuousOn S (Icc 0.001 T)) {a b : ℝ} (ha : a ∈ Icc 0.001 T) (hb : b ∈ Icc 0.001 T) :
    mass S sfr_min b - mass S sfr_min a = 1e9 * ∫ x in a..b, max sfr_min (S x) := by
  unfold mass
  have h0 : (0.001:ℝ) ∈ Icc 0.001 T := ⟨le_rfl, ha.1.trans ha.2⟩
  rw [← intervalIntegral.integral_add_adjacent_intervals (floor_int hS h0 ha) (floor_int hS ha hb)]
  ring

lemma mass_sub_bounds (hs : 0 ≤ sfr_min) (hS : ContinuousOn S (Icc 0.001 T)) (hB : ∀ x ∈ Icc 0.001 T, max sfr_min (S x) ≤ B) {a b : ℝ}
    (ha : a ∈ Icc 0.001 T) (hb : b ∈ Icc 0.001 T) (hab : a ≤ b) :
    0 ≤ mass S sfr_min b - mass S sfr_min a ∧ mass S sfr_min b - mass S sfr_min a ≤ 1e9 * (B * (b - a)) := by
  rw [mass_sub hS ha hb]
  have h1 : 0 ≤ ∫ x in a..b, max sfr_min (S x) :=
    intervalIntegral.integral_nonneg hab fun x _ => hs.trans (le_max_left _ _)
  have h2 : ∫ x in a..b, max sfr_min (S x) ≤ ∫ _ in a..b, B :=
    intervalIntegral.integral_mono_on hab (floor_int hS ha hb) (by simp) fun x hx => hB x ⟨ha.1.trans hx.1, hx.2.trans hb.2⟩
  simp only [intervalIntegral.integral_const, smul_eq_mul] at h2
  constructor
  · positivity
  · nlinarith

lemma abs_floor (c x y : ℝ) : |max c x - max c y| ≤ |x - y| := by
  rw [max_comm c, max_comm c]; exact abs_max_sub_max_le_abs _ _ _

lemma mass_start : mass S sfr_min 0.001 = 0 := by simp [mass]

variable {t : Fin (n + 2) → ℝ}

lemma Mesh.mem (ht : StrictMono t) (ht0 : 0.001 < t 0) (hT : t (Fin.last (n + 1)) ≤ T) (i : Fin (n + 2)) : t i ∈ Icc 0.001 T :=
  ⟨ht0.le.trans (ht.monotone (Fin.zero_le i)), (ht.monotone (Fin.le_last i)).trans hT⟩

/-- quadrature error at the table times -/
lemma mass_table (hs : 0 ≤ sfr_min) (hS : ContinuousOn S (Icc 0.001 T)) (hB : ∀ x ∈ Icc 0.001 T, max sfr_min (S x) ≤ B) (hB' : SFR_MIN ≤ B)
    (hω : Varies ω δ T S) (ht : StrictMono t) (ht0 : 0.001 < t 0) (hT : t (Fin.last (n + 1)) ≤ T) (hδ : Mesh δ t) (k : Fin (n + 2)) :
    |cumulative_mstar_formed t (fun j => max sfr_min (S (t j))) k - mass S sfr_min (t k)| ≤ 1e9 * (B * (t 0 - 0.001) + ω * (t k - t 0)) := by
  have hm := Mesh.mem ht ht0 hT
  induction k using Fin.induction with
  | zero =>
    rw [(C12_mstar_formula t _).1]
    have hb := mass_sub_bounds hs hS hB ⟨le_rfl, (hm 0).1.trans (hm 0).2⟩ (hm 0) ht0.le
    rw [mass_start, sub_zero] at hb
    have hp := sub_pos.mpr ht0
    have h1 := hB _ (hm 0)
    have h2 : 0 ≤ max sfr_min (S (t 0)) := hs.trans (le_max_left _ _)
    unfold SFR_MIN at hB'
    have h3 : 0 ≤ trapezoidArea 0.001 (t 0) 1e-14 (max sfr_min (S (t 0))) ∧ trapezoidArea 0.001 (t 0) 1e-14 (max sfr_min (S (t 0))) ≤ B * (t 0 - 0.001) := by
      unfold trapezoidArea
      constructor
      · positivity
      · nlinarith
    rw [sub_self, mul_zero, add_zero, abs_le]
    constructor <;> linarith [h3.1, h3.2, hb.1, hb.2]
  | succ k ih =>
    rw [(C12_mstar_formula t _).2]
    have hk : t k.castSucc ≤ t k.succ := (ht (Fin.castSucc_lt_succ (i := k))).le
    have hd := hδ.2 k
    have hsub : Icc (t k.castSucc) (t k.succ) ⊆ Icc 0.001 T := Icc_subset_Icc (hm _).1 (hm _).2
    have hc := cell_modulus (F := fun x => max sfr_min (S x)) (ω := ω) hk ((floor_cont hS).mono hsub) (by
      intro x hx
      have hx' := hsub hx
      refine ⟨(abs_floor _ _ _).trans (hω _ hx' _ (hm _) ?_), (abs_floor _ _ _).trans (hω _ hx' _ (hm _) ?_)⟩ <;>
      · rw [abs_le]; constructor <;> linarith [hx.1, hx.2])
    have hM := mass_sub (sfr_min := sfr_min) hS (hm k.castSucc) (hm k.succ)
    rw [abs_le] at ih hc ⊢
    constructor <;> nlinarith [ih.1, ih.2, hc.1, hc.2]

/-- between two table times the mass formed lies between the table values -/
lemma massFormed_cell [Dtype] {s : Fin (n + 2) → ℝ} (hs : 0 < sfr_min) (ht : StrictMono t) (ht0 : 0.001 < t 0) {τ : ℝ} (h0 : t 0 ≤ τ)
    (h1 : τ ≤ t (Fin.last (n + 1))) : ∃ k : Fin (n + 1), t k.castSucc ≤ τ ∧ τ ≤ t k.succ ∧
      cumulative_mstar_formed t (fun j => max sfr_min (s j)) k.castSucc ≤ massFormed t s sfr_min τ ∧
      massFormed t s sfr_min τ ≤ cumulative_mstar_formed t (fun j => max sfr_min (s j)) k.succ := by
  have hl := (lgt_strictMono ht ht0).monotone
  have hp : 0 < τ := lt_of_lt_of_le (t_pos ht ht0 0) h0
  have q0 : log10 (t 0) ≤ log10 τ := log10_le (t_pos ht ht0 0) h0
  have q1 : log10 τ ≤ log10 (t (Fin.last (n + 1))) := log10_le hp h1
  have b := interpBody_bounds hl (logsm_strictMono (s := s) ht ht0 hs).monotone (x := log10 τ) q0 q1
  have c0 := interpCell_left hl (x := log10 τ) q0
  have c1 := interpCell_right hl (x := log10 τ) q1
  set k := interpCell (fun i => log10 (t i)) (log10 τ) with hk
  have hmp := (C12_mstar_pos_strictMono t (fun j => max sfr_min (s j)) ht ht0 (fun i => lt_max_of_lt_left hs)).1
  have e : massFormed t s sfr_min τ = exp10 (interpBody (log10 τ) (fun i => log10 (t i)) (calc_logsm_table_from_sfh_table t s sfr_min)) := by
    rw [massFormed_eq]; congr 1
    exact interp_of_mem q0 q1
  refine ⟨k, ?_, ?_, ?_, ?_⟩
  · by_contra h; exact absurd c0 (not_le.mpr (log10_lt hp (not_le.mp h)))
  · by_contra h; exact absurd c1 (not_le.mpr (log10_lt (t_pos ht ht0 _) (not_le.mp h)))
  · rw [e, ← exp10_log10 (hmp k.castSucc)]
    apply exp10_strictMono.monotone
    have := b.1
    rwa [calc_logsm_eq] at this ⊢
  · rw [e, ← exp10_log10 (hmp k.succ)]
    apply exp10_strictMono.monotone
    have := b.2
    rwa [calc_logsm_eq] at this ⊢

/-- up to the first table time it is the first table value -/
lemma massFormed_first [Dtype] {s : Fin (n + 2) → ℝ} (hs : 0 < sfr_min) (ht : StrictMono t) (ht0 : 0.001 < t 0) {τ : ℝ} (h0 : 0 < τ) (h : τ ≤ t 0) :
    massFormed t s sfr_min τ = cumulative_mstar_formed t (fun j => max sfr_min (s j)) 0 := by
  have hp := t_pos ht ht0 0
  have hmp := (C12_mstar_pos_strictMono t (fun j => max sfr_min (s j)) ht ht0 (fun i => lt_max_of_lt_left hs)).1
  rw [massFormed_before ht ht0 h0 h, ← massFormed_before ht ht0 (half_pos hp) (half_le_self hp.le), massFormed_eq]
  have a : interp (log10 (t 0 / 2)) (fun i => log10 (t i)) (calc_logsm_table_from_sfh_table t s sfr_min) = _ :=
    interp_of_lt (lgt_strictMono ht ht0).monotone (log10_lt (half_pos hp) (half_lt_self hp))
  rw [a, calc_logsm_eq]
  exact exp10_log10 (hmp 0)

/-- C140: **mass formed**: at every time in the table's range the mass formed computed from the table is within an explicit error of the mass
formed by the star formation history. -/
theorem C140_mass_formed [Dtype] (hs : 0 < sfr_min) (hS : ContinuousOn S (Icc 0.001 T)) (hB : ∀ x ∈ Icc 0.001 T, max sfr_min (S x) ≤ B)
    (hB' : 1e-14 ≤ B) (hω : Varies ω δ T S) (ht : StrictMono t) (ht0 : 0.001 < t 0) (hT : t (Fin.last (n + 1)) ≤ T) (hδ : Mesh δ t)
    {τ : ℝ} (h0 : 0.001 ≤ τ) (h1 : τ ≤ t (Fin.last (n + 1))) :
    |massFormed t (fun i => S (t i)) sfr_min τ - mass S sfr_min τ| ≤ 1e9 * (ω * T + 2 * B * δ) := by
  have hm := Mesh.mem ht ht0 hT
  have hq := mass_table hs.le hS hB hB' hω ht ht0 hT hδ
  have hBp : 0 ≤ B := le_trans (by norm_num) hB'
  have hδ0 : 0 ≤ δ := (sub_nonneg.mpr ht0.le).trans hδ.1
  have hω0 : 0 ≤ ω := by
    have := hω _ (hm 0) _ (hm 0) (by simpa using hδ0)
    simpa using this
  have h00 : (0.001:ℝ) ∈ Icc 0.001 T := ⟨le_rfl, (hm 0).1.trans (hm 0).2⟩
  have hq' : ∀ k, 1e9 * (B * (t 0 - 0.001) + ω * (t k - t 0)) ≤ 1e9 * (ω * T + B * δ) := by
    intro k
    have : t k - t 0 ≤ T := by linarith [(hm k).2, (hm 0).1]
    have := mul_le_mul_of_nonneg_left this hω0
    have := mul_le_mul_of_nonneg_left hδ.1 hBp
    linarith
  rcases le_total τ (t 0) with h | h
  · rw [massFormed_first hs ht ht0 (lt_of_lt_of_le (by norm_num) h0) h]
    have hb0 := mass_sub_bounds hs.le hS hB ⟨h0, h1.trans hT⟩ (hm 0) h
    have g0 := (abs_le.mp (hq 0))
    have u0 : B * (t 0 - τ) ≤ B * δ := mul_le_mul_of_nonneg_left (by linarith [hδ.1]) hBp
    have u1 : B * (t 0 - 0.001) ≤ B * δ := mul_le_mul_of_nonneg_left hδ.1 hBp
    have u2 : 0 ≤ ω * T := mul_nonneg hω0 (le_trans (by norm_num) (h00.2))
    rw [abs_le]
    constructor <;> linarith [g0.1, g0.2, hb0.1, hb0.2]
  · obtain ⟨k, hk1, hk2, hk3, hk4⟩ := massFormed_cell (s := fun i => S (t i)) hs ht ht0 h h1
    have hτ : τ ∈ Icc 0.001 T := ⟨h0, h1.trans hT⟩
    have hb0 := mass_sub_bounds hs.le hS hB (hm k.castSucc) hτ hk1
    have hb1 := mass_sub_bounds hs.le hS hB hτ (hm k.succ) hk2
    have g0 := (abs_le.mp ((hq k.castSucc).trans (hq' _)))
    have g1 := (abs_le.mp ((hq k.succ).trans (hq' _)))
    have hd := hδ.2 k
    have u0 : B * (τ - t k.castSucc) ≤ B * δ := mul_le_mul_of_nonneg_left (by linarith) hBp
    have u1 : B * (t k.succ - τ) ≤ B * δ := mul_le_mul_of_nonneg_left (by linarith) hBp
    rw [abs_le]
    constructor <;> linarith [g0.1, g0.2, g1.1, g1.2, hb0.1, hb0.2, hb1.1, hb1.2]

lemma birth_mem {t_obs a : ℝ} (h0 : 0.001 ≤ t_obs) (h : t_obs ≤ T) : birthTime t_obs a ∈ Icc 0.001 T :=
  ⟨le_max_left _ _, max_le (h0.trans h) ((sub_le_self _ (Real.rpow_nonneg (by norm_num) _)).trans h)⟩

lemma ratio_err {a a' b b' E : ℝ} (ha : 0 ≤ a') (hab : a' ≤ b') (hb : 0 < b) (h1 : |a' - a| ≤ 2 * E) (h2 : |b' - b| ≤ 2 * E) :
    |a' / b' - a / b| ≤ 4 * E / b := by
  have q0 : 0 ≤ a' / b' := div_nonneg ha (ha.trans hab)
  have q1 : a' / b' ≤ 1 := div_le_one_of_le₀ hab (ha.trans hab)
  have e : a' / b' - a / b = ((a' - a) + a' / b' * (b - b')) / b := by
    rcases (ha.trans hab).eq_or_lt with h | h
    · have : a' = 0 := le_antisymm (hab.trans h.symm.le) ha
      rw [← h, this]; simp; ring
    · field_simp; ring
  rw [e, abs_div, abs_of_pos hb]
  refine div_le_div_of_nonneg_right ((abs_add_le _ _).trans ?_) hb.le
  rw [abs_mul, abs_of_nonneg q0, abs_sub_comm b]
  nlinarith [abs_nonneg (b' - b)]

/-- C140: **age weights**: each age weight computed from the table is within an explicit error of the share of the bin in the mass formed by
the star formation history. -/
theorem C140_age_weights [Dtype] {a : Fin (m + 3) → ℝ} {t_obs : ℝ} (hs : 0 < sfr_min) (hS : ContinuousOn S (Icc 0.001 T))
    (hB : ∀ x ∈ Icc 0.001 T, max sfr_min (S x) ≤ B) (hB' : 1e-14 ≤ B) (hω : Varies ω δ T S) (ht : StrictMono t) (ht0 : 0.001 < t 0)
    (hT : t (Fin.last (n + 1)) = T) (hδ : Mesh δ t) (hobs0 : 0.001 ≤ t_obs) (hobs : t_obs ≤ T) (he : Monotone (get_lg_age_bin_edges a)) (i : Fin (m + 3)) :
    let e := get_lg_age_bin_edges a
    0 < mass S sfr_min (birthTime t_obs (e 0)) - mass S sfr_min (birthTime t_obs (e (Fin.last (m + 3)))) →
    |calc_age_weights_from_sfh_table t (fun i => S (t i)) a t_obs sfr_min i - share S sfr_min t_obs (e i.castSucc) (e i.succ) (e 0) (e (Fin.last (m + 3)))| ≤
      4 * (1e9 * (ω * T + 2 * B * δ)) / (mass S sfr_min (birthTime t_obs (e 0)) - mass S sfr_min (birthTime t_obs (e (Fin.last (m + 3))))) := by
  intro e hpos
  have hM : ∀ x, |massFormed t (fun i => S (t i)) sfr_min (birthTime t_obs x) - mass S sfr_min (birthTime t_obs x)| ≤ 1e9 * (ω * T + 2 * B * δ) := fun x =>
    C140_mass_formed hs hS hB hB' hω ht ht0 hT.le hδ (birth_mem hobs0 hobs).1 ((birth_mem hobs0 hobs).2.trans hT.ge)
  have mono : ∀ x y, x ≤ y → massFormed t (fun i => S (t i)) sfr_min (birthTime t_obs y) ≤ massFormed t (fun i => S (t i)) sfr_min (birthTime t_obs x) :=
    fun x y h => massFormed_mono ht ht0 hs (birthTime_pos _ _) (birthTime_anti _ h)
  rw [age_weights_eq]
  unfold share
  have d : ∀ {p p' q q' E : ℝ}, |p' - p| ≤ E → |q' - q| ≤ E → |(p' - q') - (p - q)| ≤ 2 * E := by
    intro p p' q q' E h1 h2
    rw [abs_le] at *
    constructor <;> linarith [h1.1, h1.2, h2.1, h2.2]
  refine ratio_err ?_ ?_ hpos (d (hM _) (hM _)) (d (hM _) (hM _))
  · exact sub_nonneg.mpr (mono _ _ (he (Fin.castSucc_lt_succ (i := i)).le))
  · exact sub_le_sub (mono _ _ (he (Fin.zero_le _))) (mono _ _ (he (Fin.le_last _)))

/-- a continuous history varies little over short times -/
lemma varies_of_continuous (hS : ContinuousOn S (Icc 0.001 T)) {ε : ℝ} (hε : 0 < ε) : ∃ δ > 0, ∀ δ' ≤ δ, Varies ε δ' T S := by
  have hu := isCompact_Icc.uniformContinuousOn_of_continuous hS
  rw [Metric.uniformContinuousOn_iff_le] at hu
  obtain ⟨δ, hδ, h⟩ := hu ε hε
  exact ⟨δ, hδ, fun δ' hd x hx y hy hxy => h x hx y hy (hxy.trans hd)⟩

lemma bound_of_continuous (hT : 0.001 ≤ T) (hS : ContinuousOn S (Icc 0.001 T)) : ∃ B, 1e-14 ≤ B ∧ ∀ x ∈ Icc 0.001 T, max sfr_min (S x) ≤ B := by
  obtain ⟨x, hx, h⟩ := isCompact_Icc.exists_isMaxOn (nonempty_Icc.mpr hT) (floor_cont (sfr_min := sfr_min) hS)
  exact ⟨max 1e-14 (max sfr_min (S x)), le_max_left _ _, fun y hy => (h hy).trans (le_max_right _ _)⟩

/-- the error can be made as small as wished by refining the table -/
lemma refine_error (hT : 0.001 ≤ T) (hS : ContinuousOn S (Icc 0.001 T)) {ε : ℝ} (hε : 0 < ε) : ∃ δ > 0, ∃ ω B, 1e-14 ≤ B ∧ (∀ x ∈ Icc 0.001 T, max sfr_min (S x) ≤ B) ∧
    (∀ δ' ≤ δ, Varies ω δ' T S) ∧ ∀ δ' ≤ δ, 1e9 * (ω * T + 2 * B * δ') ≤ ε := by
  obtain ⟨B, hB, hB'⟩ := bound_of_continuous (sfr_min := sfr_min) hT hS
  have hBp : 0 < B := lt_of_lt_of_le (by norm_num) hB
  have hTp : 0 < T := lt_of_lt_of_le (by norm_num) hT
  obtain ⟨δ, hδ, h⟩ := varies_of_continuous hS (ε := ε / (2e9 * T)) (by positivity)
  refine ⟨min δ (ε / (4e9 * B)), lt_min hδ (by positivity), ε / (2e9 * T), B, hB, hB', fun δ' hd => h _ (hd.trans (min_le_left _ _)), fun δ' hd => ?_⟩
  have h1 : δ' ≤ ε / (4e9 * B) := hd.trans (min_le_right _ _)
  have h2 : B * δ' ≤ ε / 4e9 := by
    calc B * δ' ≤ B * (ε / (4e9 * B)) := mul_le_mul_of_nonneg_left h1 hBp.le
      _ = ε / 4e9 := by field_simp
  have h3 : ε / (2e9 * T) * T = ε / 2e9 := by field_simp
  rw [h3]
  have : 1e9 * (ε / 2e9 + 2 * (ε / 4e9)) = ε := by ring
  nlinarith

/-- C140: **convergence of the mass formed**: for every continuous star formation history the mass formed computed from the history's values at
table times tends to the mass formed by the history, uniformly in time, as the table's widest gap tends to zero. -/
theorem C140_mass_converges [Dtype] (hs : 0 < sfr_min) (hT : 0.001 ≤ T) (hS : ContinuousOn S (Icc 0.001 T)) {ε : ℝ} (hε : 0 < ε) :
    ∃ δ > 0, ∀ (n : ℕ) (t : Fin (n + 2) → ℝ), StrictMono t → 0.001 < t 0 → t (Fin.last (n + 1)) = T → Mesh δ t → ∀ τ ∈ Icc 0.001 T,
      |massFormed t (fun i => S (t i)) sfr_min τ - mass S sfr_min τ| ≤ ε := by
  obtain ⟨δ, hδ, ω, B, hB, hB', hv, hE⟩ := refine_error (sfr_min := sfr_min) hT hS hε
  exact ⟨δ, hδ, fun n t ht ht0 hl hm τ hτ =>
    (C140_mass_formed hs hS hB' hB (hv δ le_rfl) ht ht0 hl.le hm hτ.1 (hτ.2.trans hl.ge)).trans (hE δ le_rfl)⟩

/-- C140: **convergence of the age weights** -/
theorem C140_age_weights_converge [Dtype] {a : Fin (m + 3) → ℝ} {t_obs : ℝ} (hs : 0 < sfr_min) (hS : ContinuousOn S (Icc 0.001 T))
    (hobs0 : 0.001 ≤ t_obs) (hobs : t_obs ≤ T) (he : Monotone (get_lg_age_bin_edges a))
    (hpos : mass S sfr_min (birthTime t_obs (get_lg_age_bin_edges a (Fin.last (m + 3)))) < mass S sfr_min (birthTime t_obs (get_lg_age_bin_edges a 0)))
    {ε : ℝ} (hε : 0 < ε) :
    ∃ δ > 0, ∀ (n : ℕ) (t : Fin (n + 2) → ℝ), StrictMono t → 0.001 < t 0 → t (Fin.last (n + 1)) = T → Mesh δ t → ∀ i,
      let e := get_lg_age_bin_edges a
      |calc_age_weights_from_sfh_table t (fun i => S (t i)) a t_obs sfr_min i - share S sfr_min t_obs (e i.castSucc) (e i.succ) (e 0) (e (Fin.last (m + 3)))| ≤ ε := by
  set D := mass S sfr_min (birthTime t_obs (get_lg_age_bin_edges a 0)) - mass S sfr_min (birthTime t_obs (get_lg_age_bin_edges a (Fin.last (m + 3)))) with hD
  have hDp : 0 < D := sub_pos.mpr hpos
  obtain ⟨δ, hδ, ω, B, hB, hB', hv, hE⟩ := refine_error (sfr_min := sfr_min) (hobs0.trans hobs) hS (ε := ε * D / 4) (by positivity)
  refine ⟨δ, hδ, fun n t ht ht0 hl hm i => ?_⟩
  refine (C140_age_weights hs hS hB' hB (hv δ le_rfl) ht ht0 hl hm hobs0 hobs he i hDp).trans ?_
  rw [← hD, div_le_iff₀ hDp]
  linarith [hE δ le_rfl]
end mass

end Dsps.Props
