import Verif.Lemmas.Interp
import Verif.Lemmas.Fin
import Mathlib.Topology.Algebra.Monoid
import Mathlib.Topology.Instances.Real.Lemmas

/-! Closed form of `jnp.interp` on tables whose spacing exceeds the guard, and joint continuity. -/
namespace Jnp
open Dsps.Lemmas Filter Topology

variable {n : ℕ} [Dtype]

/-- clamp to the unit interval -/
noncomputable def clamp01 (u : ℝ) : ℝ := max 0 (min 1 u)

theorem clamp01_of_le {u : ℝ} (h : u ≤ 0) : clamp01 u = 0 := by
  unfold clamp01; rw [max_eq_left]; exact (min_le_right _ _).trans h
theorem clamp01_of_ge {u : ℝ} (h : 1 ≤ u) : clamp01 u = 1 := by
  unfold clamp01; rw [min_eq_left h]; norm_num
theorem clamp01_of_mem {u : ℝ} (h0 : 0 ≤ u) (h1 : u ≤ 1) : clamp01 u = u := by
  unfold clamp01; rw [min_eq_right h1, max_eq_right h0]
theorem continuous_clamp01 : Continuous clamp01 := by unfold clamp01; fun_prop

theorem interp_closed {xp : Fin (n + 2) → ℝ} (hr : Resolved xp) (fp : Fin (n + 2) → ℝ) (x : ℝ) :
    interp x xp fp = fp 0 + ∑ i : Fin (n + 1), (fp i.succ - fp i.castSucc) *
      clamp01 ((x - xp i.castSucc) / (xp i.succ - xp i.castSucc)) := by
  have hm := hr.strictMono
  have hd : ∀ i : Fin (n + 1), 0 < xp i.succ - xp i.castSucc := fun i => sub_pos.2 (hm Fin.castSucc_lt_succ)
  have c0 : ∀ i : Fin (n + 1), x ≤ xp i.castSucc → clamp01 ((x - xp i.castSucc) / (xp i.succ - xp i.castSucc)) = 0 :=
    fun i h => clamp01_of_le (div_nonpos_of_nonpos_of_nonneg (by linarith) (hd i).le)
  have c1 : ∀ i : Fin (n + 1), xp i.succ ≤ x → clamp01 ((x - xp i.castSucc) / (xp i.succ - xp i.castSucc)) = 1 :=
    fun i h => clamp01_of_ge (by rw [le_div_iff₀ (hd i)]; linarith)
  rcases lt_or_ge x (xp 0) with h0 | h0
  · rw [Finset.sum_eq_zero fun i _ => by rw [c0 i (h0.le.trans (hm.monotone (Fin.zero_le _))), mul_zero], add_zero]
    exact interp_of_lt hm.monotone h0
  rcases lt_or_ge (xp (Fin.last _)) x with h1 | h1
  · rw [Finset.sum_congr rfl fun i _ => by rw [c1 i ((hm.monotone (Fin.le_last _)).trans h1.le), mul_one], sum_telescope]
    rw [show interp x xp fp = fp (Fin.last _) from interp_of_gt h1]; ring
  obtain ⟨c, hc0, hc1⟩ : ∃ c : Fin (n + 1), xp c.castSucc ≤ x ∧ x ≤ xp c.succ :=
    ⟨interpCell xp x, interpCell_left hm.monotone h0, interpCell_right hm.monotone h1⟩
  have hV := interp_cell hr fp c hc0 hc1
  let G : Fin (n + 2) → ℝ := fun j => if j ≤ c.castSucc then fp j else interp x xp fp
  have key : ∀ i : Fin (n + 1), (fp i.succ - fp i.castSucc) * clamp01 ((x - xp i.castSucc) / (xp i.succ - xp i.castSucc)) =
      G i.succ - G i.castSucc := by
    intro i
    rcases lt_trichotomy i c with h | h | h
    · rw [c1 i ((hm.monotone (Fin.succ_le_castSucc_iff.2 h)).trans hc0), mul_one]
      show _ = (if _ then _ else _) - (if _ then _ else _)
      rw [if_pos (Fin.succ_le_castSucc_iff.2 h), if_pos (Fin.castSucc_le_castSucc_iff.2 h.le)]
    · subst h
      show _ = (if _ then _ else _) - (if _ then _ else _)
      rw [if_neg (not_le.2 Fin.castSucc_lt_succ), if_pos le_rfl, hV,
        clamp01_of_mem (div_nonneg (by linarith) (hd i).le) (by rw [div_le_one (hd i)]; linarith)]
      ring
    · rw [c0 i (hc1.trans (hm.monotone (Fin.succ_le_castSucc_iff.2 h))), mul_zero]
      show _ = (if _ then _ else _) - (if _ then _ else _)
      rw [if_neg (not_le.2 (Fin.castSucc_lt_succ.trans (Fin.succ_lt_succ_iff.2 h) |>.trans_le' (Fin.castSucc_le_castSucc_iff.2 le_rfl))),
        if_neg (not_le.2 (Fin.castSucc_lt_castSucc_iff.2 h)), sub_self]
  rw [Finset.sum_congr rfl fun i _ => key i, sum_telescope]
  show _ = _ + ((if _ then _ else _) - (if _ then _ else _))
  rw [if_neg (not_le.2 (Fin.castSucc_lt_last c)), if_pos (Fin.zero_le _)]
  ring

/-- joint continuity of `interp` in the abscissa and the table values -/
theorem continuous_interp {xp : Fin (n + 2) → ℝ} (hr : Resolved xp) :
    Continuous fun p : ℝ × (Fin (n + 2) → ℝ) => interp p.1 xp p.2 := by
  simp only [interp_closed hr]
  refine Continuous.add (by fun_prop) (continuous_finset_sum _ fun i _ => Continuous.mul (by fun_prop) ?_)
  exact continuous_clamp01.comp (by fun_prop)

theorem Resolved.eventually {X : Type*} [TopologicalSpace X] {x0 : X} {xp : X → Fin (n + 2) → ℝ} (hx : ContinuousAt xp x0)
    (hr : Resolved (xp x0)) : ∀ᶠ y in 𝓝 x0, Resolved (xp y) := by
  unfold Resolved
  refine eventually_all.2 fun i => ?_
  exact ((continuousAt_pi.1 hx i.succ).sub (continuousAt_pi.1 hx i.castSucc)).eventually (lt_mem_nhds (hr i))

/-- joint continuity of `interp` in abscissa, nodes and values -/
theorem interp_continuousAt {X : Type*} [TopologicalSpace X] {x0 : X} {x : X → ℝ} {xp fp : X → Fin (n + 2) → ℝ}
    (h : ContinuousAt x x0) (hx : ContinuousAt xp x0) (hf : ContinuousAt fp x0) (hr : Resolved (xp x0)) :
    ContinuousAt (fun y => interp (x y) (xp y) (fp y)) x0 := by
  have h1 := fun i => continuousAt_pi.1 hx i
  have h2 := fun i => continuousAt_pi.1 hf i
  have e : (fun y => interp (x y) (xp y) (fp y)) =ᶠ[𝓝 x0] fun y => fp y 0 + ∑ i : Fin (n + 1), (fp y i.succ - fp y i.castSucc) *
      clamp01 ((x y - xp y i.castSucc) / (xp y i.succ - xp y i.castSucc)) := by
    filter_upwards [Resolved.eventually hx hr] with y hy
    exact interp_closed hy _ _
  refine ContinuousAt.congr_of_eventuallyEq ?_ e
  refine (h2 0).add (tendsto_finset_sum _ fun i _ => ((h2 _).sub (h2 _)).mul ?_)
  refine continuous_clamp01.continuousAt.comp (f := fun y => (x y - xp y i.castSucc) / (xp y i.succ - xp y i.castSucc)) ?_
  exact (h.sub (h1 _)).div ((h1 _).sub (h1 _)) (sub_pos.2 (hr.strictMono Fin.castSucc_lt_succ)).ne'

/-- with zero fills: continuous away from the two ends of the table -/
theorem interp0_continuousAt {X : Type*} [TopologicalSpace X] {x0 : X} {x : X → ℝ} {xp fp : X → Fin (n + 2) → ℝ}
    (h : ContinuousAt x x0) (hx : ContinuousAt xp x0) (hf : ContinuousAt fp x0) (hr : Resolved (xp x0))
    (h0 : x x0 ≠ xp x0 0) (h1 : x x0 ≠ xp x0 (Fin.last _)) :
    ContinuousAt (fun y => interpLR (x y) (xp y) (fp y) 0 0) x0 := by
  have c0 := continuousAt_pi.1 hx 0
  have c1 := continuousAt_pi.1 hx (Fin.last _)
  rcases lt_or_gt_of_ne h0 with h0 | h0
  · refine (continuousAt_const (y := (0:ℝ))).congr_of_eventuallyEq ?_
    filter_upwards [Resolved.eventually hx hr, h.eventually_lt c0 h0] with y hy hy2
    exact interp_of_lt hy.strictMono.monotone hy2
  rcases lt_or_gt_of_ne h1 with h1 | h1
  · refine (interp_continuousAt h hx hf hr).congr_of_eventuallyEq ?_
    filter_upwards [c0.eventually_lt h h0, h.eventually_lt c1 h1] with y hy hy2
    unfold interp
    rw [interp_of_mem hy.le hy2.le, interp_of_mem hy.le hy2.le]
  · refine (continuousAt_const (y := (0:ℝ))).congr_of_eventuallyEq ?_
    filter_upwards [c1.eventually_lt h h1] with y hy2
    exact interp_of_gt hy2

end Jnp
