import Verif.Lemmas.Smooth
import Verif.Props.Burst
import Mathlib.Analysis.SpecialFunctions.ExpDeriv
import Verif.Cases

/-! Property C92: smoothness of burst weights in the burst parameters. -/
namespace Dsps.Props
open Dsps.Utils Dsps.Lemmas Dsps.Diffburst Jnp Set Filter Topology Spec

variable {n : ℕ}

section
variable {E : Type*} [NormedAddCommGroup E] [NormedSpace ℝ E] {x0 : E}

theorem contDiff_jsigmoid : ContDiff ℝ 2 Jnp.sigmoid := by
  unfold Jnp.sigmoid
  exact contDiff_const.div (contDiff_const.add (Real.contDiff_exp.comp contDiff_neg)) fun x => by positivity

theorem sigmoid_contDiffAt {x c ylo yhi : E → ℝ} {k : ℝ} (hx : ContDiffAt ℝ 2 x x0) (hc : ContDiffAt ℝ 2 c x0)
    (h1 : ContDiffAt ℝ 2 ylo x0) (h2 : ContDiffAt ℝ 2 yhi x0) :
    ContDiffAt ℝ 2 (fun y => Utils.sigmoid (x y) (c y) k (ylo y) (yhi y)) x0 := by
  unfold Utils.sigmoid
  refine h1.add ((h2.sub h1).mul ?_)
  exact contDiff_jsigmoid.contDiffAt.comp x0 (contDiffAt_const.mul (hx.sub hc))

theorem exp10_contDiff : ContDiff ℝ 2 exp10 := by
  have : exp10 = fun x : ℝ => Real.exp (Real.log 10 * x) := by
    funext x; exact Real.rpow_def_of_pos (by norm_num) x
  rw [this]
  exact Real.contDiff_exp.comp (contDiff_const.mul contDiff_id)

theorem pureburst_contDiffAt (lgyr : Fin n → ℝ) {pk mx : E → ℝ} (hp : ContDiffAt ℝ 2 pk x0) (hm : ContDiffAt ℝ 2 mx x0)
    (h : pk x0 < mx x0) (hin : ∃ i, lgyr i ∈ BurstSupport (pk x0) (mx x0)) (i : Fin n) :
    ContDiffAt ℝ 2 (fun y => pureburst_age_weights_from_params lgyr (pk y) (mx y) i) x0 := by
  let g : Fin n → E → ℝ := fun i y => triweight_gaussian (lgyr i) (0.5 * ((pk y - (mx y - pk y)) + mx y))
    ((mx y - (pk y - (mx y - pk y))) / 6)
  have hg : ∀ i, ContDiffAt ℝ 2 (g i) x0 := by
    intro i
    have e : g i = fun y => twc ((lgyr i - 0.5 * ((pk y - (mx y - pk y)) + mx y)) / ((mx y - (pk y - (mx y - pk y))) / 6)) /
        ((mx y - (pk y - (mx y - pk y))) / 6) := by funext y; exact triweight_gaussian_eq _ _ _
    rw [e]
    have hh : ContDiffAt ℝ 2 (fun y => (mx y - (pk y - (mx y - pk y))) / 6) x0 := (hm.sub (hp.sub (hm.sub hp))).div_const _
    have hh0 : (mx x0 - (pk x0 - (mx x0 - pk x0))) / 6 ≠ 0 := by
      have : 0 < mx x0 - (pk x0 - (mx x0 - pk x0)) := by linarith
      positivity
    have hx : ContDiffAt ℝ 2 (fun y => lgyr i - 0.5 * ((pk y - (mx y - pk y)) + mx y)) x0 :=
      contDiffAt_const.sub (contDiffAt_const.mul ((hp.sub (hm.sub hp)).add hm))
    exact (contDiff_twc.contDiffAt.comp x0 (hx.div hh hh0)).div hh hh0
  have hnn : ∀ i, 0 ≤ g i x0 := by
    intro i
    by_cases hi : lgyr i ∈ BurstSupport (pk x0) (mx x0)
    · exact (tw_burst_pos h hi).le
    · exact (tw_burst_zero h hi).ge
  have hS : 0 < ∑ i, g i x0 := by
    obtain ⟨j, hj⟩ := hin
    exact Finset.sum_pos' (fun i _ => hnn i) ⟨j, Finset.mem_univ _, tw_burst_pos h hj⟩
  have hSc : ContDiffAt ℝ 2 (fun y => ∑ i, g i y) x0 := ContDiffAt.sum fun i _ => hg i
  refine ((hg i).div hSc hS.ne').congr_of_eventuallyEq ?_
  filter_upwards [hSc.continuousAt.eventually (lt_mem_nhds hS)] with y hy
  show zero_safe_normalize (fun i => g i y) i = _
  unfold zero_safe_normalize
  simp only
  rw [if_neg (not_le.2 (show 0 < Jnp.sum fun i => g i y from hy))]; rfl

theorem bursty_contDiffAt {p : E → BurstParams} (h1 : ContDiffAt ℝ 2 (fun y => (p y).lgfburst) x0)
    (h2 : ContDiffAt ℝ 2 (fun y => (p y).lgyr_peak) x0) (h3 : ContDiffAt ℝ 2 (fun y => (p y).lgyr_max) x0)
    (smooth lg_age_gyr : Fin n → ℝ) (h : (p x0).lgyr_peak < (p x0).lgyr_max)
    (hin : ∃ i, lg_age_gyr i + 9 ∈ BurstSupport (p x0).lgyr_peak (p x0).lgyr_max) (i : Fin n) :
    ContDiffAt ℝ 2 (fun y => calc_bursty_age_weights (p y) smooth lg_age_gyr i) x0 := by
  have e9 : (9.0:ℝ) = 9 := by norm_num
  simp only [calc_bursty_age_weights, e9]
  have hf := exp10_contDiff.contDiffAt.comp x0 h1
  exact (hf.mul (pureburst_contDiffAt _ h2 h3 h hin i)).add ((contDiffAt_const.sub hf).mul contDiffAt_const)

end

/-- C92: the bursty age weights are twice continuously differentiable in (lgfburst, lgyr_peak, lgyr_max) at every parameter point whose
burst contains at least one age of the grid. -/
theorem C92_bursty_weights_smooth (smooth lg_age_gyr : Fin n → ℝ) (i : Fin n) :
    ContDiffOn ℝ 2 (fun q : ℝ × ℝ × ℝ => calc_bursty_age_weights ⟨q.1, q.2.1, q.2.2⟩ smooth lg_age_gyr i)
      {q | q.2.1 < q.2.2 ∧ ∃ i, 2 * q.2.1 - q.2.2 < lg_age_gyr i + 9 ∧ lg_age_gyr i + 9 < q.2.2} := by
  intro q hq
  exact (bursty_contDiffAt (p := fun q : ℝ × ℝ × ℝ => (⟨q.1, q.2.1, q.2.2⟩ : BurstParams)) (by fun_prop) (by fun_prop) (by fun_prop)
    smooth lg_age_gyr hq.1 hq.2 i).contDiffWithinAt

/-- C92: on every age grid reaching from 1 Myr to 10 Myr with gaps below two dex, the weights are C² functions of the unbounded parameters
on the whole of ℝ³. -/
theorem C92_bursty_u_smooth (smooth lg_age_gyr : Fin (n + 1) → ℝ) (h0 : lg_age_gyr 0 ≤ -3) (h1 : -2 ≤ lg_age_gyr (Fin.last n))
    (hgap : ∀ i : Fin n, lg_age_gyr i.succ - lg_age_gyr i.castSucc < 2) (i : Fin (n + 1)) :
    ContDiff ℝ 2 (fun u : ℝ × ℝ × ℝ => calc_bursty_age_weights_from_u_params ⟨u.1, u.2.1, u.2.2⟩ smooth lg_age_gyr i) := by
  rw [contDiff_iff_contDiffAt]
  intro u
  have hb := C27_burst_bounds ⟨u.1, u.2.1, u.2.2⟩
  have hpk : ContDiffAt ℝ 2 (fun u : ℝ × ℝ × ℝ => get_lgyr_peak_from_u_lgyr_peak u.2.1) u := by
    unfold get_lgyr_peak_from_u_lgyr_peak
    exact sigmoid_contDiffAt (by fun_prop) contDiffAt_const contDiffAt_const contDiffAt_const
  refine bursty_contDiffAt (p := fun u : ℝ × ℝ × ℝ => get_params_from_u_params ⟨u.1, u.2.1, u.2.2⟩) ?_ ?_ ?_ smooth lg_age_gyr ?_ ?_ i
  · exact sigmoid_contDiffAt (by fun_prop) contDiffAt_const contDiffAt_const contDiffAt_const
  · exact hpk
  · exact sigmoid_contDiffAt (x := fun u : ℝ × ℝ × ℝ => u.2.2) (by fun_prop) (contDiffAt_const.mul (contDiffAt_const.add (hpk.add contDiffAt_const)))
      (hpk.add contDiffAt_const) contDiffAt_const
  · exact lt_trans (by linarith) hb.2.2.1
  · by_contra hno
    have hs : IsProbVector (fun i : Fin (n + 1) => if i = 0 then (1:ℝ) else 0) :=
      ⟨fun i => by show (0:ℝ) ≤ if i = 0 then 1 else 0; split_ifs <;> norm_num, by simp⟩
    have a := (C30_bursty_prob_partial _ hb _ lg_age_gyr hs h0 h1 hgap).2
    have b := (C30_mass_lost _ hb _ lg_age_gyr hs (fun i hi => hno ⟨i, hi⟩)).2
    exact absurd a b.ne

/-- C92, finding: the weights are discontinuous where the burst loses its last grid age: if no grid age is strictly inside the burst and one
is exactly at its upper end, the total burst weight jumps from 0 to 1 as `lgyr_max` increases. -/
theorem C92_jump (lgyr : Fin n → ℝ) (peak mx : ℝ) (h : peak < mx) (hno : ∀ i, lgyr i ∉ BurstSupport peak mx) (j : Fin n)
    (hj : lgyr j = mx) :
    ∑ i, pureburst_age_weights_from_params lgyr peak mx i = 0 ∧
    (∀ m, mx < m → ∑ i, pureburst_age_weights_from_params lgyr peak m i = 1) ∧
    ¬ ContinuousAt (fun m => ∑ i, pureburst_age_weights_from_params lgyr peak m i) mx := by
  have h0 : ∑ i, pureburst_age_weights_from_params lgyr peak mx i = 0 := by
    rw [(C29_pureburst_weights lgyr peak mx h).2.2.2, if_neg (by push Not; exact hno)]
  have h1 : ∀ m, mx < m → ∑ i, pureburst_age_weights_from_params lgyr peak m i = 1 := by
    intro m hm
    rw [(C29_pureburst_weights lgyr peak m (h.trans hm)).2.2.2, if_pos ⟨j, by rw [hj]; constructor <;> linarith⟩]
  refine ⟨h0, h1, fun hc => ?_⟩
  have hlim : Tendsto (fun m => ∑ i, pureburst_age_weights_from_params lgyr peak m i) (𝓝[>] mx) (𝓝 1) :=
    tendsto_const_nhds.congr' (by filter_upwards [self_mem_nhdsWithin] with m hm using (h1 m hm).symm)
  have hlim2 := hc.tendsto.mono_left (nhdsWithin_le_nhds (s := Ioi mx))
  rw [h0] at hlim2
  exact zero_ne_one (tendsto_nhds_unique hlim2 hlim)

example : ∃ lgyr : Fin 3 → ℝ, (∀ i, lgyr i ∉ BurstSupport 5.5 7) ∧ lgyr 0 = 7 := by
  refine ⟨![7, 8, 9], fun i hi => ?_, rfl⟩
  have := hi.2
  fin_cases i <;> norm_num at this

example : ∃ lg : Fin 3 → ℝ, lg 0 ≤ -3 ∧ -2 ≤ lg (Fin.last 2) ∧ ∀ i : Fin 2, lg i.succ - lg i.castSucc < 2 :=
  ⟨fun i => -3 + i * 1, by norm_num, by norm_num, fun i => by push_cast [Fin.val_succ, Fin.val_castSucc]; linarith⟩

end Dsps.Props

namespace Dsps.Props
open Dsps.Utils Dsps.Lemmas Dsps.Diffburst Jnp Set Filter Topology Spec

/-- C92 applied to small age grids -/
example (i : Fin 3) := (C92_bursty_weights_smooth ![0.2, 0.3, 0.5] ![-3, -2, -1] i).contDiffWithinAt (x := (-3, 6.5, 8)) ⟨by norm_num, 1, by norm_num⟩
example (i : Fin 3) := C92_bursty_u_smooth (n := 2) ![0.2, 0.3, 0.5] ![-3, -2, -1] (by norm_num) (by norm_num [Fin.last])
  (by intro i; fin_cases i <;> simp <;> norm_num) i
example := C92_jump ![7, 8, 9] 5.5 7 (by norm_num) (fun i hi => by
  have := hi.2
  fin_cases i <;> norm_num at this) 0 rfl

end Dsps.Props
