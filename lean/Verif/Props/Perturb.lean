import Verif.Props.Superpose
import Mathlib.Order.Monotone.Union
import Verif.Props.RefinePhot
import Verif.Props.SspPhot
import Verif.Props.BurstShift
import Verif.Lemmas.RoundCosmoQuad

/-! C153: how errors in the star formation history propagate to masses, weights, spectra and magnitudes. -/
namespace Dsps.Props
open Dsps.Utils Dsps.Lemmas Dsps.StellarAgeWeights Dsps.MetallicityWeights Dsps.SspWeights Dsps.Constants Jnp Spec Set MeasureTheory
open scoped BigOperators

variable {n m k w : ℕ}

/-- **Specification.** `s'` lies between `lo` and `hi` times `s`, time by time -/
def BetweenTimes {ι : Type*} (lo hi : ℝ) (s s' : ι → ℝ) : Prop := ∀ j, lo * s j ≤ s' j ∧ s' j ≤ hi * s j

/-! ### one gap of the table -/

/-- `∫ exp(x θ) dθ` between `α` and `β` -/
noncomputable def expMean (x α β : ℝ) : ℝ := ∫ θ in α..β, Real.exp (x * θ)

lemma expMean_eq {x : ℝ} (hx : x ≠ 0) (α β : ℝ) : expMean x α β = (Real.exp (x * β) - Real.exp (x * α)) / x := by
  unfold expMean
  rw [intervalIntegral.integral_comp_mul_left (fun θ => Real.exp θ) hx, integral_exp, smul_eq_mul]
  field_simp

lemma expMean_pos {x α β : ℝ} (h : α < β) : 0 < expMean x α β :=
  intervalIntegral.intervalIntegral_pos_of_pos (Continuous.intervalIntegrable (by fun_prop) _ _) (fun _ => Real.exp_pos _) h

lemma expMean_nonneg {x α β : ℝ} (h : α ≤ β) : 0 ≤ expMean x α β :=
  intervalIntegral.integral_nonneg h fun _ _ => (Real.exp_pos _).le

lemma expMean_le {x y α β : ℝ} (h0 : 0 ≤ α) (h : α ≤ β) (h1 : β ≤ 1) : expMean x α β ≤ Real.exp (max 0 (x - y)) * expMean y α β := by
  unfold expMean
  rw [← intervalIntegral.integral_const_mul]
  refine intervalIntegral.integral_mono_on h (Continuous.intervalIntegrable (by fun_prop) _ _) (Continuous.intervalIntegrable (by fun_prop) _ _) fun θ hθ => ?_
  rw [← Real.exp_add]
  refine Real.exp_le_exp.2 ?_
  have hθ0 : 0 ≤ θ := h0.trans hθ.1
  have hθ1 : θ ≤ 1 := hθ.2.trans h1
  have : (x - y) * θ ≤ max 0 (x - y) := by
    rcases le_total 0 (x - y) with h | h
    · rw [max_eq_right h]; nlinarith
    · rw [max_eq_left h]; nlinarith
  linarith

/-- the share of the part `[α, β]` of a gap changes by at most `exp |x' - x|` -/
lemma share_le' {x x' α β : ℝ} (h0 : 0 ≤ α) (h : α ≤ β) (h1 : β ≤ 1) :
    expMean x' α β * expMean x 0 1 ≤ Real.exp |x' - x| * (expMean x α β * expMean x' 0 1) := by
  have a1 := expMean_le (x := x') (y := x) h0 h h1
  have a2 := expMean_le (x := x) (y := x') le_rfl zero_le_one le_rfl
  have p1 := expMean_nonneg (x := x) h
  have p2 := expMean_nonneg (x := x) zero_le_one
  have e : Real.exp |x' - x| = Real.exp (max 0 (x' - x)) * Real.exp (max 0 (x - x')) := by
    rw [← Real.exp_add]; congr 1
    rcases le_total 0 (x' - x) with h | h
    · rw [abs_of_nonneg h, max_eq_right h, max_eq_left (by linarith), add_zero]
    · rw [abs_of_nonpos h, max_eq_left h, max_eq_right (by linarith)]; ring
  rw [e]
  calc _ ≤ (Real.exp (max 0 (x' - x)) * expMean x α β) * (Real.exp (max 0 (x - x')) * expMean x' 0 1) :=
        mul_le_mul a1 a2 p2 (mul_nonneg (Real.exp_pos _).le p1)
    _ = _ := by ring

/-- power-law interpolation between `A` and `B` -/
noncomputable def geom (A B θ : ℝ) : ℝ := A * Real.exp (Real.log (B / A) * θ)

lemma geom_diff {A B α β : ℝ} (hA : 0 < A) (hAB : A < B) :
    (geom A B β - geom A B α) * expMean (Real.log (B / A)) 0 1 = (B - A) * expMean (Real.log (B / A)) α β := by
  have hx : Real.log (B / A) ≠ 0 := (Real.log_pos ((one_lt_div hA).2 hAB)).ne'
  have hB : Real.exp (Real.log (B / A)) = B / A := Real.exp_log (div_pos (hA.trans hAB) hA)
  rw [expMean_eq hx, expMean_eq hx, mul_one, mul_zero, Real.exp_zero, hB]
  unfold geom
  field_simp

/-- in one gap: masses within `[lo, hi]` times the others at both ends, and so the mass formed in the gap; then the mass formed in any part of the gap
is at most `hi²/lo` times the other -/
lemma geom_part {A B A' B' lo hi α β : ℝ} (hA : 0 < A) (hAB : A < B) (hA' : 0 < A') (hAB' : A' < B') (hlo : 0 < lo)
    (a1 : lo * A ≤ A') (a2 : A' ≤ hi * A) (b1 : lo * B ≤ B') (b2 : B' ≤ hi * B) (d2 : B' - A' ≤ hi * (B - A))
    (h0 : 0 ≤ α) (h : α ≤ β) (h1 : β ≤ 1) :
    geom A' B' β - geom A' B' α ≤ hi * (hi / lo) * (geom A B β - geom A B α) := by
  set x := Real.log (B / A)
  set x' := Real.log (B' / A')
  have e := geom_diff (α := α) (β := β) hA hAB
  have e' := geom_diff (α := α) (β := β) hA' hAB'
  have hhi : 0 < hi := by
    have : 0 < hi * A := hA'.trans_le a2
    exact pos_of_mul_pos_left this hA.le
  have hB := hA.trans hAB
  have hB' := hA'.trans hAB'
  have hk : Real.exp |x' - x| ≤ hi / lo := by
    have ex : x' - x = Real.log (B' / A' / (B / A)) := (Real.log_div (by positivity) (by positivity)).symm
    have q : 0 < B' / A' / (B / A) := by positivity
    have q1 : B' / A' / (B / A) ≤ hi / lo := by
      rw [div_div_div_eq, div_le_div_iff₀ (by positivity) hlo]
      calc B' * A * lo ≤ (hi * B) * A * lo := by gcongr
        _ = hi * (B * (lo * A)) := by ring
        _ ≤ hi * (B * A') := by gcongr
        _ = _ := by ring
    have q2 : lo / hi ≤ B' / A' / (B / A) := by
      rw [div_div_div_eq, div_le_div_iff₀ hhi (by positivity)]
      calc lo * (A' * B) = A' * (lo * B) := by ring
        _ ≤ (hi * A) * B' := by gcongr
        _ = _ := by ring
    rw [ex]
    rcases le_total 0 (Real.log (B' / A' / (B / A))) with h | h
    · rw [abs_of_nonneg h, Real.exp_log q]; exact q1
    · rw [abs_of_nonpos h, Real.exp_neg, Real.exp_log q]
      calc _ ≤ (lo / hi)⁻¹ := inv_anti₀ (by positivity) q2
        _ = _ := by rw [inv_div]
  have p := expMean_pos (x := x) zero_lt_one
  have p' := expMean_pos (x := x') zero_lt_one
  have s := share_le' (x := x) (x' := x') h0 h h1
  have hd : 0 ≤ B' - A' := by linarith
  have hm := expMean_nonneg (x := x) h
  have hm' := expMean_nonneg (x := x') h
  -- multiply by both whole-gap integrals
  refine le_of_mul_le_mul_right ?_ (mul_pos p p')
  calc (geom A' B' β - geom A' B' α) * (expMean x 0 1 * expMean x' 0 1)
      = ((geom A' B' β - geom A' B' α) * expMean x' 0 1) * expMean x 0 1 := by ring
    _ = (B' - A') * (expMean x' α β * expMean x 0 1) := by rw [e']; ring
    _ ≤ (hi * (B - A)) * (hi / lo * (expMean x α β * expMean x' 0 1)) := by
        refine mul_le_mul d2 (s.trans (mul_le_mul_of_nonneg_right hk (mul_nonneg hm p'.le))) (mul_nonneg hm' p.le) ?_
        exact mul_nonneg hhi.le (by linarith)
    _ = hi * (hi / lo) * (((B - A) * expMean x α β) * expMean x' 0 1) := by ring
    _ = _ := by rw [← e]; ring

/-! ### the whole table -/

lemma mono_pieces {t : Fin (n + 2) → ℝ} {g : ℝ → ℝ} (ht : StrictMono t) (h0 : 0 < t 0) (before : ∀ τ, 0 < τ → τ ≤ t 0 → g τ = g (t 0))
    (gap : ∀ i : Fin (n + 1), MonotoneOn g (Icc (t i.castSucc) (t i.succ))) (after : ∀ τ, t (Fin.last (n + 1)) ≤ τ → g τ = g (t (Fin.last (n + 1)))) :
    MonotoneOn g (Ioi 0) := by
  have up : ∀ i : Fin (n + 2), MonotoneOn g (Ioc 0 (t i)) := by
    intro i
    induction i using Fin.induction with
    | zero => intro x hx y hy _; rw [before x hx.1 hx.2, before y hy.1 hy.2]
    | succ i ih =>
      have hp : 0 < t i.castSucc := h0.trans_le (ht.monotone (Fin.zero_le _))
      have hle : t i.castSucc ≤ t i.succ := (ht Fin.castSucc_lt_succ).le
      have := MonotoneOn.union_right ih (gap i) ⟨⟨hp, le_rfl⟩, fun x hx => hx.2⟩ ⟨⟨le_rfl, hle⟩, fun x hx => hx.1⟩
      rwa [Ioc_union_Icc_eq_Ioc hp hle] at this
  have hl : 0 < t (Fin.last (n + 1)) := h0.trans_le (ht.monotone (Fin.zero_le _))
  have := MonotoneOn.union_right (up (Fin.last (n + 1))) (t := Ici (t (Fin.last (n + 1))))
    (fun x hx y hy _ => by rw [after x hx, after y hy]) ⟨⟨hl, le_rfl⟩, fun x hx => hx.2⟩ ⟨le_refl (t (Fin.last (n + 1))), fun x hx => hx⟩
  rwa [Ioc_union_Ici_eq_Ioi hl] at this

section
variable [Dtype] {t s s' : Fin (n + 2) → ℝ} {lo hi sfr_min : ℝ}

lemma floor_between (hlo : lo ≤ 1) (hhi : 1 ≤ hi) (hs : 0 < sfr_min) (h : BetweenTimes lo hi s s') :
    BetweenTimes lo hi (fun j => max sfr_min (s j)) (fun j => max sfr_min (s' j)) := fun j => by
  show lo * max sfr_min (s j) ≤ max sfr_min (s' j) ∧ max sfr_min (s' j) ≤ hi * max sfr_min (s j)
  constructor
  · rcases le_total sfr_min (s j) with g | g
    · rw [max_eq_right g]; exact (h j).1.trans (le_max_right _ _)
    · rw [max_eq_left g]; exact le_trans (by nlinarith) (le_max_left _ _)
  · refine max_le ?_ ((h j).2.trans ?_)
    · have := le_max_left sfr_min (s j); nlinarith
    · exact mul_le_mul_of_nonneg_left (le_max_right _ _) (by linarith)

lemma cum_gap (ht : StrictMono t) (h : BetweenTimes lo hi s s') (i : Fin (n + 1)) :
    cumulative_mstar_formed t s' i.succ - cumulative_mstar_formed t s' i.castSucc ≤
      hi * (cumulative_mstar_formed t s i.succ - cumulative_mstar_formed t s i.castSucc) := by
  rw [(C12_mstar_formula t s').2 i, (C12_mstar_formula t s).2 i]
  have hd : 0 ≤ t i.succ - t i.castSucc := sub_nonneg.2 (ht Fin.castSucc_lt_succ).le
  have h1 := (h i.castSucc).2
  have h2 := (h i.succ).2
  unfold trapezoidArea
  have := mul_le_mul_of_nonneg_left (add_le_add h1 h2) hd
  nlinarith

lemma mass_upper (ht : StrictMono t) (ht0 : 0.001 < t 0) (hs : 0 < sfr_min) (hhi : 1 ≤ hi) (h : BetweenTimes lo hi s s') (τ : ℝ) :
    massFormed t s' sfr_min τ ≤ hi * massFormed t s sfr_min τ :=
  C142_mass_monotone ht ht0 hs hhi (fun j => (h j).2.trans (mul_le_mul_of_nonneg_left (le_max_right _ _) (by linarith))) τ

lemma BetweenTimes.symm {ι : Type*} {s s' : ι → ℝ} (hlo : 0 < lo) (hhi : 0 < hi) (h : BetweenTimes lo hi s s') : BetweenTimes (1 / hi) (1 / lo) s' s := fun j => by
  have := h j
  constructor
  · rw [one_div, inv_mul_le_iff₀ hhi]; exact this.2
  · rw [one_div, le_inv_mul_iff₀ hlo]; exact this.1

/-- C153: **mass.** A star formation history known to within factors `lo ≤ 1 ≤ hi` gives the mass formed by any time to within the same factors. -/
theorem C153_mass (ht : StrictMono t) (ht0 : 0.001 < t 0) (hs : 0 < sfr_min) (hlo : 0 < lo) (hlo1 : lo ≤ 1) (hhi : 1 ≤ hi)
    (h : ∀ j, lo * s j ≤ s' j ∧ s' j ≤ hi * s j) (τ : ℝ) :
    lo * massFormed t s sfr_min τ ≤ massFormed t s' sfr_min τ ∧ massFormed t s' sfr_min τ ≤ hi * massFormed t s sfr_min τ := by
  refine ⟨?_, mass_upper ht ht0 hs hhi (lo := lo) h τ⟩
  have := mass_upper ht ht0 hs (one_le_one_div hlo hlo1) (BetweenTimes.symm hlo (by linarith) h) τ
  rwa [one_div, le_inv_mul_iff₀ hlo] at this

lemma mass_geom (ht : StrictMono t) (ht0 : 0.001 < t 0) (hs : 0 < sfr_min) (hr : Resolved fun i => Real.logb 10 (t i)) (i : Fin (n + 1)) {τ : ℝ}
    (h0 : t i.castSucc ≤ τ) (h1 : τ ≤ t i.succ) :
    massFormed t s sfr_min τ = geom (massFormed t s sfr_min (t i.castSucc)) (massFormed t s sfr_min (t i.succ))
      ((Real.logb 10 τ - Real.logb 10 (t i.castSucc)) / (Real.logb 10 (t i.succ) - Real.logb 10 (t i.castSucc))) := by
  have e := (C20_mass_history t s sfr_min ht ht0 hs hr).2 i τ h0 h1
  have pA := massFormed_pos (t := t) (s := s) (sfr_min := sfr_min) (t i.castSucc)
  have pB := massFormed_pos (t := t) (s := s) (sfr_min := sfr_min) (t i.succ)
  have pτ := massFormed_pos (t := t) (s := s) (sfr_min := sfr_min) τ
  set A := massFormed t s sfr_min (t i.castSucc)
  set B := massFormed t s sfr_min (t i.succ)
  set M := massFormed t s sfr_min τ
  generalize (Real.logb 10 τ - Real.logb 10 (t i.castSucc)) / (Real.logb 10 (t i.succ) - Real.logb 10 (t i.castSucc)) = θ at e ⊢
  have l10 : Real.log 10 ≠ 0 := (Real.log_pos (by norm_num)).ne'
  have e2 : Real.log M = Real.log A + θ * (Real.log B - Real.log A) := by
    unfold Real.logb at e
    field_simp at e
    linarith
  unfold geom
  rw [Real.log_div pB.ne' pA.ne', ← Real.exp_log pτ, e2, Real.exp_add, Real.exp_log pA, mul_comm θ]

/-- C153: **the mass formed in any interval of time**, however it lies with respect to the table, changes by at most the factor `hi²/lo`. -/
theorem C153_interval_mass (ht : StrictMono t) (ht0 : 0.001 < t 0) (hs : 0 < sfr_min) (hr : Resolved fun i => Real.logb 10 (t i))
    (hlo : 0 < lo) (hlo1 : lo ≤ 1) (hhi : 1 ≤ hi) (h : ∀ j, lo * s j ≤ s' j ∧ s' j ≤ hi * s j) {τ τ' : ℝ} (h0 : 0 < τ) (hτ : τ ≤ τ') :
    massFormed t s' sfr_min τ' - massFormed t s' sfr_min τ ≤ hi ^ 2 / lo * (massFormed t s sfr_min τ' - massFormed t s sfr_min τ) := by
  have hm := C153_mass ht ht0 hs hlo hlo1 hhi h
  have key : MonotoneOn (fun τ => hi * (hi / lo) * massFormed t s sfr_min τ - massFormed t s' sfr_min τ) (Ioi 0) := by
    refine mono_pieces ht (t_pos ht ht0 0) (fun τ h0 h1 => ?_) (fun i => ?_) (fun τ h1 => ?_)
    · rw [massFormed_before ht ht0 h0 h1, massFormed_before (s := s') ht ht0 h0 h1]
    · intro x hx y hy hxy
      have hlt : Real.logb 10 (t i.castSucc) < Real.logb 10 (t i.succ) := lgt_strictMono ht ht0 Fin.castSucc_lt_succ
      have hp := t_pos ht ht0 i.castSucc
      have hlg : ∀ {u v : ℝ}, 0 < u → u ≤ v → Real.logb 10 u ≤ Real.logb 10 v := fun h0 h => log10_le h0 h
      have hd := sub_pos.2 hlt
      have hAB := massFormed_strictMonoOn (s := s) ht ht0 hs hr (ht.monotone (Fin.zero_le _)) (ht (Fin.castSucc_lt_succ (i := i))) (ht.monotone (Fin.le_last _))
      have hAB' := massFormed_strictMonoOn (s := s') ht ht0 hs hr (ht.monotone (Fin.zero_le _)) (ht (Fin.castSucc_lt_succ (i := i))) (ht.monotone (Fin.le_last _))
      have hgap : massFormed t s' sfr_min (t i.succ) - massFormed t s' sfr_min (t i.castSucc) ≤
          hi * (massFormed t s sfr_min (t i.succ) - massFormed t s sfr_min (t i.castSucc)) := by
        rw [massFormed_table ht ht0 hs hr, massFormed_table ht ht0 hs hr, massFormed_table ht ht0 hs hr, massFormed_table ht ht0 hs hr]
        exact cum_gap ht (floor_between hlo1 hhi hs h) i
      have := geom_part (massFormed_pos (t := t) (s := s) (sfr_min := sfr_min) _) hAB (massFormed_pos (t := t) (s := s') (sfr_min := sfr_min) _) hAB' hlo
        (hm _).1 (hm _).2 (hm _).1 (hm _).2 hgap
        (α := (Real.logb 10 x - Real.logb 10 (t i.castSucc)) / (Real.logb 10 (t i.succ) - Real.logb 10 (t i.castSucc)))
        (β := (Real.logb 10 y - Real.logb 10 (t i.castSucc)) / (Real.logb 10 (t i.succ) - Real.logb 10 (t i.castSucc)))
        (div_nonneg (sub_nonneg.2 (hlg hp hx.1)) hd.le)
        (div_le_div_of_nonneg_right (sub_le_sub_right (hlg (hp.trans_le hx.1) hxy) _) hd.le)
        ((div_le_one hd).2 (sub_le_sub_right (hlg (hp.trans_le hy.1) hy.2) _))
      rw [← mass_geom ht ht0 hs hr i hx.1 hx.2, ← mass_geom ht ht0 hs hr i hy.1 hy.2, ← mass_geom ht ht0 hs hr i hx.1 hx.2,
        ← mass_geom ht ht0 hs hr i hy.1 hy.2] at this
      simp only
      linarith
    · rw [massFormed_after ht ht0 hr h1, massFormed_after (s := s') ht ht0 hr h1]
  have := key (show τ ∈ Ioi 0 from h0) (show τ' ∈ Ioi 0 from h0.trans_le hτ) hτ
  simp only at this
  have e : hi ^ 2 / lo = hi * (hi / lo) := by ring
  rw [e]
  linarith

lemma interval_lower (ht : StrictMono t) (ht0 : 0.001 < t 0) (hs : 0 < sfr_min) (hr : Resolved fun i => Real.logb 10 (t i))
    (hlo : 0 < lo) (hlo1 : lo ≤ 1) (hhi : 1 ≤ hi) (h : ∀ j, lo * s j ≤ s' j ∧ s' j ≤ hi * s j) {τ τ' : ℝ} (h0 : 0 < τ) (hτ : τ ≤ τ') :
    massFormed t s sfr_min τ' - massFormed t s sfr_min τ ≤ hi / lo ^ 2 * (massFormed t s' sfr_min τ' - massFormed t s' sfr_min τ) := by
  have hhi0 : 0 < hi := by linarith
  have := C153_interval_mass ht ht0 hs hr (one_div_pos.2 hhi0) ((div_le_one hhi0).2 hhi) (one_le_one_div hlo hlo1) (BetweenTimes.symm hlo hhi0 h) h0 hτ
  have e : (1 / lo) ^ 2 / (1 / hi) = hi / lo ^ 2 := by field_simp
  rwa [e] at this

variable {a : Fin (m + 3) → ℝ} {z : Fin (k + 3) → ℝ} {t_obs scatter gal_lgmet : ℝ} {zt : Fin (n + 2) → ℝ} {flux flux' : Fin (k + 3) → Fin (m + 3) → Fin w → ℝ}

lemma age_upper (H : SedInputs t a z t_obs scatter) (hlo : 0 < lo) (hlo1 : lo ≤ 1) (hhi : 1 ≤ hi) (h : ∀ j, lo * s j ≤ s' j ∧ s' j ≤ hi * s j)
    (j : Fin (m + 3)) :
    calc_age_weights_from_sfh_table t s' a t_obs SFR_MIN j ≤ (hi / lo) ^ 3 * calc_age_weights_from_sfh_table t s a t_obs SFR_MIN j := by
  have hS : (0:ℝ) < SFR_MIN := by norm_num [SFR_MIN]
  have hmono := (C17_age_edges_mono a H.ages).monotone
  rw [age_weights_eq, age_weights_eq]
  have tot := fun s => (C17_total_mass_pos_iff t s a t_obs SFR_MIN hS H.times H.start H.resolved H.ages.1).2.2 ⟨H.young, H.old⟩
  have u := C153_interval_mass H.times H.start hS H.resolved hlo hlo1 hhi h (birthTime_pos t_obs (get_lg_age_bin_edges a j.succ))
    (birthTime_anti t_obs (hmono (Fin.castSucc_lt_succ (i := j)).le))
  have l := interval_lower H.times H.start hS H.resolved hlo hlo1 hhi h (birthTime_pos t_obs (get_lg_age_bin_edges a (Fin.last (m + 3))))
    (birthTime_anti t_obs (hmono (Fin.zero_le (Fin.last (m + 3)))))
  have p := massFormed_mono (s := s) H.times H.start hS (birthTime_pos t_obs (get_lg_age_bin_edges a j.succ)) (birthTime_anti t_obs (hmono (Fin.castSucc_lt_succ (i := j)).le))
  have T := tot s
  have T' := tot s'
  generalize massFormed t s' SFR_MIN (birthTime t_obs (get_lg_age_bin_edges a 0)) -
    massFormed t s' SFR_MIN (birthTime t_obs (get_lg_age_bin_edges a (Fin.last (m + 3)))) = D' at *
  generalize massFormed t s SFR_MIN (birthTime t_obs (get_lg_age_bin_edges a 0)) -
    massFormed t s SFR_MIN (birthTime t_obs (get_lg_age_bin_edges a (Fin.last (m + 3)))) = D at *
  replace p := sub_nonneg.2 p
  generalize massFormed t s SFR_MIN (birthTime t_obs (get_lg_age_bin_edges a j.castSucc)) -
    massFormed t s SFR_MIN (birthTime t_obs (get_lg_age_bin_edges a j.succ)) = d at *
  generalize massFormed t s' SFR_MIN (birthTime t_obs (get_lg_age_bin_edges a j.castSucc)) -
    massFormed t s' SFR_MIN (birthTime t_obs (get_lg_age_bin_edges a j.succ)) = d' at *
  have hhi0 : 0 < hi := by linarith
  rw [div_le_iff₀ T', mul_div_assoc', div_mul_eq_mul_div, le_div_iff₀ T]
  calc d' * D ≤ (hi ^ 2 / lo * d) * (hi / lo ^ 2 * D') := mul_le_mul u l T.le (by positivity)
    _ = _ := by field_simp

/-- C153: **age weights.** Every age weight changes by at most the factor `(hi/lo)³`, up or down. -/
theorem C153_age_weights (H : SedInputs t a z t_obs scatter) (hlo : 0 < lo) (hlo1 : lo ≤ 1) (hhi : 1 ≤ hi) (h : ∀ j, lo * s j ≤ s' j ∧ s' j ≤ hi * s j)
    (j : Fin (m + 3)) :
    (lo / hi) ^ 3 * calc_age_weights_from_sfh_table t s a t_obs SFR_MIN j ≤ calc_age_weights_from_sfh_table t s' a t_obs SFR_MIN j ∧
    calc_age_weights_from_sfh_table t s' a t_obs SFR_MIN j ≤ (hi / lo) ^ 3 * calc_age_weights_from_sfh_table t s a t_obs SFR_MIN j := by
  have hhi0 : 0 < hi := by linarith
  refine ⟨?_, age_upper H hlo hlo1 hhi h j⟩
  have := age_upper H (one_div_pos.2 hhi0) ((div_le_one hhi0).2 hhi) (one_le_one_div hlo hlo1) (BetweenTimes.symm hlo hhi0 h) j
  have e : (1 / lo) / (1 / hi) = (lo / hi)⁻¹ := by field_simp
  rwa [e, inv_pow, le_inv_mul_iff₀ (by positivity)] at this

/-- C153: **bursty age weights** change by at most the same factor. -/
theorem C153_bursty_age_weights (H : SedInputs t a z t_obs scatter) (hlo : 0 < lo) (hlo1 : lo ≤ 1) (hhi : 1 ≤ hi) (h : ∀ j, lo * s j ≤ s' j ∧ s' j ≤ hi * s j)
    {p : Diffburst.BurstParams} (hf : p.lgfburst ≤ 0) (hpk : p.lgyr_peak < p.lgyr_max)
    (j : Fin (m + 3)) :
    let bursty := fun s => Diffburst.calc_bursty_age_weights p (calc_age_weights_from_sfh_table t s a t_obs) a j
    (lo / hi) ^ 3 * bursty s ≤ bursty s' ∧ bursty s' ≤ (hi / lo) ^ 3 * bursty s := by
  intro bursty
  have hhi0 : 0 < hi := by linarith
  have hw := C153_age_weights H hlo hlo1 hhi h j
  have f1 : exp10 p.lgfburst ≤ 1 := Real.rpow_le_one_of_one_le_of_nonpos (by norm_num) hf
  have f0 : 0 ≤ exp10 p.lgfburst := (exp10_pos _).le
  have k1 : (lo / hi) ^ 3 ≤ 1 := pow_le_one₀ (by positivity) ((div_le_one hhi0).2 (by linarith))
  have k2 : 1 ≤ (hi / lo) ^ 3 := one_le_pow₀ ((one_le_div hlo).2 (by linarith))
  have hb' := mul_nonneg f0 ((C29_pureburst_weights (fun i => a i + 9.0) _ _ hpk).1 j)
  have f2 := sub_nonneg.2 f1
  simp only [bursty, Diffburst.calc_bursty_age_weights]
  generalize exp10 p.lgfburst * Diffburst.pureburst_age_weights_from_params (fun i => a i + 9.0) p.lgyr_peak p.lgyr_max j = B at *
  have a1 := mul_le_mul_of_nonneg_left hw.1 f2
  have a2 := mul_le_mul_of_nonneg_left hw.2 f2
  constructor
  · have := mul_le_mul_of_nonneg_right k1 hb'
    nlinarith
  · have := mul_le_mul_of_nonneg_right k2 hb'
    nlinarith

/-- the joint weights of both SED functions change by at most the factor of the age weights -/
lemma joint_upper (H : SedInputs t a z t_obs scatter) (hz : ∀ i, -10 ≤ zt i ∧ zt i ≤ 10) {κ : ℝ}
    (h : ∀ j, calc_age_weights_from_sfh_table t s' a t_obs SFR_MIN j ≤ κ * calc_age_weights_from_sfh_table t s a t_obs SFR_MIN j)
    (i : Fin (k + 3)) (j : Fin (m + 3)) :
    (calc_ssp_weights_sfh_table_lognormal_mdf t s' gal_lgmet scatter z a t_obs).weights i j ≤
      κ * (calc_ssp_weights_sfh_table_lognormal_mdf t s gal_lgmet scatter z a t_obs).weights i j ∧
    (calc_ssp_weights_sfh_table_met_table t s' zt scatter z a t_obs).weights i j ≤ κ * (calc_ssp_weights_sfh_table_met_table t s zt scatter z a t_obs).weights i j := by
  have hage := fun s => C17_age_weights_prob_mild_partial t s a t_obs H.times H.start H.resolved H.ages H.young H.old
  have hmet := fun x => C21_lgmet_weights_prob_mild_partial x scatter H.width z H.mets H.low H.high
  constructor
  · have e := fun s => C23_joint_weights_lognormal t s gal_lgmet scatter z a t_obs (hage s) (hmet gal_lgmet)
    have e1 := (e s).2.2.1 i j
    have e2 := (e s').2.2.1 i j
    rw [(e s).1, (e s).2.1] at e1
    rw [(e s').1, (e s').2.1] at e2
    rw [e1, e2]
    have := mul_le_mul_of_nonneg_left (h j) ((hmet gal_lgmet).1 i)
    linarith
  · have e := fun s => (C24_factorisation_any_grid t s zt scatter z a t_obs H.times H.start H.resolved H.ages.1 H.young H.old H.width (fun i => (hz i).1) (fun i => (hz i).2)).1 i j
    rw [e s, e s']
    have := mul_le_mul_of_nonneg_left (h j) ((hmet (interp (Real.logb 10 (birthTime t_obs (a j))) (fun l => Real.logb 10 (t l)) zt)).1 i)
    linarith

lemma mixture_le {W W' F F' : Fin (k + 3) → Fin (m + 3) → ℝ} {M M' c1 c2 c3 : ℝ} (hM : 0 ≤ M) (hM' : M' ≤ c1 * M) (hW0 : ∀ i j, 0 ≤ W' i j)
    (hW : ∀ i j, W' i j ≤ c2 * W i j) (hF0 : ∀ i j, 0 ≤ F i j) (hF' : ∀ i j, 0 ≤ F' i j) (hF : ∀ i j, F' i j ≤ c3 * F i j) (hc1 : 0 ≤ c1) (hc3 : 0 ≤ c3) :
    M' * ∑ i, ∑ j, W' i j * F' i j ≤ c1 * c2 * c3 * (M * ∑ i, ∑ j, W i j * F i j) := by
  have h1 : ∑ i, ∑ j, W' i j * F' i j ≤ c2 * c3 * ∑ i, ∑ j, W i j * F i j := by
    rw [Finset.mul_sum]
    refine Finset.sum_le_sum fun i _ => ?_
    rw [Finset.mul_sum]
    refine Finset.sum_le_sum fun j _ => ?_
    calc W' i j * F' i j ≤ W' i j * (c3 * F i j) := mul_le_mul_of_nonneg_left (hF i j) (hW0 i j)
      _ ≤ (c2 * W i j) * (c3 * F i j) := mul_le_mul_of_nonneg_right (hW i j) (mul_nonneg hc3 (hF0 i j))
      _ = _ := by ring
  have h0 : 0 ≤ ∑ i, ∑ j, W' i j * F' i j := Finset.sum_nonneg fun i _ => Finset.sum_nonneg fun j _ => mul_nonneg (hW0 i j) (hF' i j)
  calc M' * ∑ i, ∑ j, W' i j * F' i j ≤ (c1 * M) * ∑ i, ∑ j, W' i j * F' i j := mul_le_mul_of_nonneg_right hM' h0
    _ ≤ (c1 * M) * (c2 * c3 * ∑ i, ∑ j, W i j * F i j) := mul_le_mul_of_nonneg_left h1 (mul_nonneg hc1 hM)
    _ = _ := by ring

lemma sed_upper {flo fhi : ℝ} (H : SedInputs t a z t_obs scatter) (hz : ∀ i, -10 ≤ zt i ∧ zt i ≤ 10) (hs : 0 < sfr_min) (hlo : 0 < lo) (hlo1 : lo ≤ 1)
    (hhi : 1 ≤ hi) (h : ∀ j, lo * s j ≤ s' j ∧ s' j ≤ hi * s j) (hflo : 0 < flo) (hfhi : 0 < fhi) (hF : ∀ i j l, 0 ≤ flux i j l)
    (hf : ∀ i j l, flo * flux i j l ≤ flux' i j l ∧ flux' i j l ≤ fhi * flux i j l) (l : Fin w) :
    (calc_rest_sed_sfh_table_lognormal_mdf t s' gal_lgmet scatter z a flux' t_obs sfr_min).rest_sed l ≤
      hi * (hi / lo) ^ 3 * fhi * (calc_rest_sed_sfh_table_lognormal_mdf t s gal_lgmet scatter z a flux t_obs sfr_min).rest_sed l ∧
    (calc_rest_sed_sfh_table_met_table t s' zt scatter z a flux' t_obs sfr_min).rest_sed l ≤
      hi * (hi / lo) ^ 3 * fhi * (calc_rest_sed_sfh_table_met_table t s zt scatter z a flux t_obs sfr_min).rest_sed l := by
  have hhi0 : 0 ≤ hi := by linarith
  have hW := joint_upper (s := s) (s' := s') (gal_lgmet := gal_lgmet) (zt := zt) H hz (age_upper H hlo hlo1 hhi h)
  have hM := (C153_mass H.times H.start hs hlo hlo1 hhi h t_obs).2
  have hp1 : ∀ i j, 0 ≤ (calc_ssp_weights_sfh_table_lognormal_mdf t s' gal_lgmet scatter z a t_obs).weights i j :=
    (C23_joint_weights_lognormal_inputs t s' gal_lgmet scatter z a t_obs H.times H.start H.resolved H.ages H.young H.old H.width H.mets H.low H.high).1
  have hp2 : ∀ i j, 0 ≤ (calc_ssp_weights_sfh_table_met_table t s' zt scatter z a t_obs).weights i j :=
    ((C24_joint_weights_met_table t s' zt scatter H.width z a t_obs
      (by have := (lgmet_edges_mono z H.mets H.low H.high).monotone; norm_num [Constants.LGMET_LO, Constants.LGMET_HI] at this; exact this)
      (C17_age_weights_prob_mild_partial t s' a t_obs H.times H.start H.resolved H.ages H.young H.old)).2.1).1
  have hF' : ∀ i j, 0 ≤ flux' i j l := fun i j => (mul_nonneg hflo.le (hF i j l)).trans (hf i j l).1
  rw [(C25_sed_formula t s' zt gal_lgmet scatter z a flux' t_obs sfr_min l).1, (C25_sed_formula t s zt gal_lgmet scatter z a flux t_obs sfr_min l).1,
    (C25_sed_formula t s' zt gal_lgmet scatter z a flux' t_obs sfr_min l).2, (C25_sed_formula t s zt gal_lgmet scatter z a flux t_obs sfr_min l).2]
  exact ⟨mixture_le (massFormed_pos _).le hM hp1 (fun i j => (hW i j).1) (fun i j => hF i j l) hF' (fun i j => (hf i j l).2) hhi0 hfhi.le,
    mixture_le (massFormed_pos _).le hM hp2 (fun i j => (hW i j).2) (fun i j => hF i j l) hF' (fun i j => (hf i j l).2) hhi0 hfhi.le⟩

/-- C153: **spectra.** If the star formation history is known to within factors `lo ≤ 1 ≤ hi` and the library to within factors `flo`, `fhi`, the spectrum
is known to within `lo (lo/hi)³ flo` and `hi (hi/lo)³ fhi`, at every wavelength and for both SED functions. -/
theorem C153_sed {flo fhi : ℝ} (H : SedInputs t a z t_obs scatter) (hz : ∀ i, -10 ≤ zt i ∧ zt i ≤ 10) (hs : 0 < sfr_min) (hlo : 0 < lo) (hlo1 : lo ≤ 1)
    (hhi : 1 ≤ hi) (h : ∀ j, lo * s j ≤ s' j ∧ s' j ≤ hi * s j) (hflo : 0 < flo) (hfhi : 0 < fhi) (hF : ∀ i j l, 0 ≤ flux i j l)
    (hf : ∀ i j l, flo * flux i j l ≤ flux' i j l ∧ flux' i j l ≤ fhi * flux i j l) (l : Fin w) :
    (let sed := (calc_rest_sed_sfh_table_lognormal_mdf t s gal_lgmet scatter z a flux t_obs sfr_min).rest_sed
     let sed' := (calc_rest_sed_sfh_table_lognormal_mdf t s' gal_lgmet scatter z a flux' t_obs sfr_min).rest_sed
     lo * (lo / hi) ^ 3 * flo * sed l ≤ sed' l ∧ sed' l ≤ hi * (hi / lo) ^ 3 * fhi * sed l) ∧
    (let sed := (calc_rest_sed_sfh_table_met_table t s zt scatter z a flux t_obs sfr_min).rest_sed
     let sed' := (calc_rest_sed_sfh_table_met_table t s' zt scatter z a flux' t_obs sfr_min).rest_sed
     lo * (lo / hi) ^ 3 * flo * sed l ≤ sed' l ∧ sed' l ≤ hi * (hi / lo) ^ 3 * fhi * sed l) := by
  have hhi0 : 0 < hi := by linarith
  have u := sed_upper (sfr_min := sfr_min) (gal_lgmet := gal_lgmet) H hz hs hlo hlo1 hhi h hflo hfhi hF hf l
  have v := sed_upper (sfr_min := sfr_min) (gal_lgmet := gal_lgmet) (s := s') (s' := s) (flux := flux') (flux' := flux) H hz hs (one_div_pos.2 hhi0) ((div_le_one hhi0).2 hhi)
    (one_le_one_div hlo hlo1) (BetweenTimes.symm hlo hhi0 h) (one_div_pos.2 hfhi) (one_div_pos.2 hflo)
    (fun i j l => (mul_nonneg hflo.le (hF i j l)).trans (hf i j l).1)
    (fun i j => BetweenTimes.symm hflo hfhi (hf i j)) l
  have e : 1 / lo * ((1 / lo) / (1 / hi)) ^ 3 * (1 / flo) = (lo * (lo / hi) ^ 3 * flo)⁻¹ := by field_simp
  rw [e, le_inv_mul_iff₀ (by positivity), le_inv_mul_iff₀ (by positivity)] at v
  exact ⟨⟨v.1, u.1⟩, ⟨v.2, u.2⟩⟩

end

section magnitudes
open Dsps.Photometry
variable [Dtype] {p q : ℕ} {wave f g : Fin (p + 2) → ℝ} {fw ft : Fin (q + 1) → ℝ} {c1 c2 zr Om0 w0 wa hub : ℝ}

/-- C153: **magnitudes.** A spectrum known to within factors `c1` and `c2` gives observed magnitudes (any cosmology) and rest-frame magnitudes to within
`-2.5 log10 c2` and `-2.5 log10 c1`. -/
theorem C153_magnitudes (hw : Monotone wave) (hf : GoodFilter fw ft) (hz : -1 < zr) (h1 : 0 < c1) (h : ∀ i, c1 * f i ≤ g i ∧ g i ≤ c2 * f i) (h2 : 0 < c2) :
    (0 < obs_flux_ssp wave f fw ft zr / flux_ab0_at_10pc fw ft →
      calc_obs_mag wave f fw ft zr Om0 w0 wa hub - 2.5 * Real.logb 10 c2 ≤ calc_obs_mag wave g fw ft zr Om0 w0 wa hub ∧
      calc_obs_mag wave g fw ft zr Om0 w0 wa hub ≤ calc_obs_mag wave f fw ft zr Om0 w0 wa hub - 2.5 * Real.logb 10 c1) ∧
    (0 < calc_rest_flux wave f fw ft →
      calc_rest_mag wave f fw ft - 2.5 * Real.logb 10 c2 ≤ calc_rest_mag wave g fw ft ∧
      calc_rest_mag wave g fw ft ≤ calc_rest_mag wave f fw ft - 2.5 * Real.logb 10 c1) := by
  have up := C42_monotone hw hf hz (fun i => (h i).2) Om0 w0 wa hub
  have dn := C42_monotone hw hf hz (fun i => (h i).1) Om0 w0 wa hub
  constructor
  · intro hp
    have e1 := (C39_pogson wave f fw ft zr Om0 w0 wa hub h1 hp).1
    have e2 := (C39_pogson wave f fw ft zr Om0 w0 wa hub h2 hp).1
    have hp1 : 0 < obs_flux_ssp wave (fun i => c1 * f i) fw ft zr / flux_ab0_at_10pc fw ft := by
      rw [obs_flux_smul, mul_div_assoc]; exact mul_pos h1 hp
    have hpg : 0 < obs_flux_ssp wave g fw ft zr / flux_ab0_at_10pc fw ft :=
      hp1.trans_le (div_le_div_of_nonneg_right (obs_flux_mono hw hf hz fun i => (h i).1) (ab0_nonneg hf))
    exact ⟨by rw [← e2]; exact up.2.1 hpg, by rw [← e1]; exact dn.2.1 hp1⟩
  · intro hp
    have e1 := C39_pogson_rest wave f fw ft h1 hp
    have e2 := C39_pogson_rest wave f fw ft h2 hp
    have hp1 : 0 < calc_rest_flux wave (fun i => c1 * f i) fw ft := by
      have := C42_additive wave f f fw ft c1 0
      simp only [zero_mul, add_zero] at this
      rw [this]; exact mul_pos h1 hp
    exact ⟨by rw [← e2]; exact up.2.2 (hp1.trans_le dn.1), by rw [← e1]; exact dn.2.2 hp1⟩

lemma mag_factor {δ : ℝ} (h0 : 0 ≤ δ) (h1 : δ ≤ 0.1) :
    2.5 * Real.logb 10 ((1 + δ) * ((1 + δ) / (1 - δ)) ^ 3 * 1) ≤ 8.1 * δ ∧ -(2.5 * Real.logb 10 ((1 - δ) * ((1 - δ) / (1 + δ)) ^ 3 * 1)) ≤ 8.1 * δ := by
  have hm : 0 < 1 - δ := by norm_num at h1; linarith
  have hp : 0 < 1 + δ := by linarith
  have a1 : Real.log (1 + δ) ≤ δ := by have := Real.log_le_sub_one_of_pos hp; linarith
  have a2 : -Real.log (1 - δ) ≤ 10 / 9 * δ := by
    have := Real.one_sub_inv_le_log_of_pos hm
    have e : (1 - δ)⁻¹ - 1 ≤ 10 / 9 * δ := by
      rw [sub_le_iff_le_add, inv_le_iff_one_le_mul₀ hm]
      norm_num at h1; nlinarith
    linarith
  have l10 := log10_bounds
  have l0 : 0 < Real.log 10 := by linarith
  have e1 : Real.log ((1 + δ) * ((1 + δ) / (1 - δ)) ^ 3 * 1) = 4 * Real.log (1 + δ) - 3 * Real.log (1 - δ) := by
    rw [mul_one, Real.log_mul hp.ne' (by positivity), Real.log_pow, Real.log_div hp.ne' hm.ne']; push_cast; ring
  have e2 : Real.log ((1 - δ) * ((1 - δ) / (1 + δ)) ^ 3 * 1) = 4 * Real.log (1 - δ) - 3 * Real.log (1 + δ) := by
    rw [mul_one, Real.log_mul hm.ne' (by positivity), Real.log_pow, Real.log_div hm.ne' hp.ne']; push_cast; ring
  unfold Real.logb
  rw [e1, e2]
  constructor
  · rw [mul_div_assoc', div_le_iff₀ l0]
    have := mul_le_mul_of_nonneg_left l10.1 (show 0 ≤ 8.1 * δ by positivity)
    norm_num at this ⊢; linarith
  · rw [mul_div_assoc', ← neg_div, div_le_iff₀ l0]
    have := mul_le_mul_of_nonneg_left l10.1 (show 0 ≤ 8.1 * δ by positivity)
    norm_num at this ⊢; linarith

variable {t s s' zt : Fin (n + 2) → ℝ} {a : Fin (m + 3) → ℝ} {z : Fin (k + 3) → ℝ} {t_obs scatter gal_lgmet sfr_min δ : ℝ}
  {flux : Fin (k + 3) → Fin (m + 3) → Fin (p + 2) → ℝ}

/-- C153: **the whole chain.** A relative error of at most `δ ≤ 10%` in the star formation rate at every time of the table changes every observed and every
rest-frame magnitude, whatever the library, the filter, the redshift and the cosmology, by at most `8.1 δ`. -/
theorem C153_forward_model (H : SedInputs t a z t_obs scatter) (hzt : ∀ i, -10 ≤ zt i ∧ zt i ≤ 10) (hs : 0 < sfr_min) (h0 : 0 ≤ δ) (h1 : δ ≤ 0.1)
    (hs0 : ∀ j, 0 ≤ s j) (h : ∀ j, |s' j - s j| ≤ δ * s j) (hF : ∀ i j l, 0 ≤ flux i j l) (hw : Monotone wave) (hf : GoodFilter fw ft) (hz : -1 < zr) :
    (let sed := fun s => (calc_rest_sed_sfh_table_lognormal_mdf t s gal_lgmet scatter z a flux t_obs sfr_min).rest_sed
     (0 < obs_flux_ssp wave (sed s) fw ft zr / flux_ab0_at_10pc fw ft →
       |calc_obs_mag wave (sed s') fw ft zr Om0 w0 wa hub - calc_obs_mag wave (sed s) fw ft zr Om0 w0 wa hub| ≤ 8.1 * δ) ∧
     (0 < calc_rest_flux wave (sed s) fw ft → |calc_rest_mag wave (sed s') fw ft - calc_rest_mag wave (sed s) fw ft| ≤ 8.1 * δ)) ∧
    (let sed := fun s => (calc_rest_sed_sfh_table_met_table t s zt scatter z a flux t_obs sfr_min).rest_sed
     (0 < obs_flux_ssp wave (sed s) fw ft zr / flux_ab0_at_10pc fw ft →
       |calc_obs_mag wave (sed s') fw ft zr Om0 w0 wa hub - calc_obs_mag wave (sed s) fw ft zr Om0 w0 wa hub| ≤ 8.1 * δ) ∧
     (0 < calc_rest_flux wave (sed s) fw ft → |calc_rest_mag wave (sed s') fw ft - calc_rest_mag wave (sed s) fw ft| ≤ 8.1 * δ)) := by
  have hm : 0 < 1 - δ := by norm_num at h1; linarith
  have hp : 0 < 1 + δ := by linarith
  have hb : ∀ j, (1 - δ) * s j ≤ s' j ∧ s' j ≤ (1 + δ) * s j := fun j => by
    have := abs_le.1 (h j)
    constructor <;> linarith
  have F := mag_factor h0 h1
  have S := fun l => C153_sed (sfr_min := sfr_min) (gal_lgmet := gal_lgmet) (flux := flux) (flux' := flux) (flo := 1) (fhi := 1) H hzt hs hm (by linarith) (by linarith) hb
    one_pos one_pos hF (fun i j l => ⟨(one_mul _).le, (one_mul _).ge⟩) l
  have k1 : 0 < (1 - δ) * ((1 - δ) / (1 + δ)) ^ 3 * 1 := by positivity
  have k2 : 0 < (1 + δ) * ((1 + δ) / (1 - δ)) ^ 3 * 1 := by positivity
  have fin : ∀ {x y : ℝ}, x - 2.5 * Real.logb 10 ((1 + δ) * ((1 + δ) / (1 - δ)) ^ 3 * 1) ≤ y ∧ y ≤ x - 2.5 * Real.logb 10 ((1 - δ) * ((1 - δ) / (1 + δ)) ^ 3 * 1) →
      |y - x| ≤ 8.1 * δ := fun {x y} h => by
    rw [abs_le]
    constructor <;> linarith [h.1, h.2, F.1, F.2]
  have m1 := C153_magnitudes (Om0 := Om0) (w0 := w0) (wa := wa) (hub := hub) hw hf hz k1 (fun l => (S l).1) k2
  have m2 := C153_magnitudes (Om0 := Om0) (w0 := w0) (wa := wa) (hub := hub) hw hf hz k1 (fun l => (S l).2) k2
  exact ⟨⟨fun hp => fin (m1.1 hp), fun hp => fin (m1.2 hp)⟩, ⟨fun hp => fin (m2.1 hp), fun hp => fin (m2.2 hp)⟩⟩

end magnitudes

/-! ### The hypotheses are met -/
section
attribute [local instance] Dtype.float64

/-- a history known to 2% -/
noncomputable def caseS2 (j : Fin 3) : ℝ := caseS j * (1 + 0.01 * j)

theorem caseS2_near (j : Fin 3) : |caseS2 j - caseS j| ≤ 0.02 * caseS j := by
  have h := caseS_pos j
  have hj : ((j : ℕ) : ℝ) ≤ 2 := by exact_mod_cast Nat.lt_succ_iff.1 j.2
  have e : caseS2 j - caseS j = caseS j * (0.01 * j) := by unfold caseS2; ring
  rw [e, abs_of_nonneg (by positivity)]
  norm_num
  nlinarith

theorem caseS2_between (j : Fin 3) : (1 - 0.02) * caseS j ≤ caseS2 j ∧ caseS2 j ≤ (1 + 0.02) * caseS j := by
  have := abs_le.1 (caseS2_near j)
  constructor <;> linarith

example := C153_interval_mass (n := 1) (sfr_min := 1e-14) caseT_mono caseT_zero (by norm_num) caseT_resolved (by norm_num) (by norm_num) (by norm_num) caseS2_between
  (τ := 3) (τ' := 7.7) (by norm_num) (by norm_num)
example := C153_age_weights (n := 1) (m := 0) (k := 2) case_sedInputs (by norm_num) (by norm_num) (by norm_num) caseS2_between 1
example := C153_bursty_age_weights (n := 1) (m := 0) (k := 2) case_sedInputs (by norm_num) (by norm_num) (by norm_num) caseS2_between
  (p := ⟨-2, 6, 7⟩) (by norm_num) (by norm_num) 1
example := C153_forward_model (n := 1) (m := 0) (k := 2) (p := 1) (q := 2) (gal_lgmet := -2) (zt := fun _ => -2) (sfr_min := 1e-14) (Om0 := 0.3) (w0 := -1) (wa := 0) (hub := 0.7)
  case_sedInputs (fun _ => by norm_num) (by norm_num) (by norm_num) (by norm_num) (fun j => (caseS_pos j).le) caseS2_near
  (flux := caseLib) (fun i j l => mul_nonneg (by positivity) (caseLum_nonneg l)) caseWave_mono.monotone case_good (zr := 1 / 2) (by norm_num)

end
end Dsps.Props
