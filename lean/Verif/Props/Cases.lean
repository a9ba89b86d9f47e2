import Verif.Props.RoundObsBits
import Verif.Props.RoundSed
import Verif.Props.RoundMag
import Verif.Props.RoundMzrCases
import Verif.Props.RoundMisc
import Verif.Props.RoundBlackbody
import Verif.Props.Rounding
import Verif.Props.ShapesBurst
import Verif.Props.ShapesEw
import Verif.Props.EwMore
import Verif.Props.SspPhot
import Verif.Props.Superpose
import Verif.Props.Responds
import Verif.Props.GradPopulation
import Verif.Props.PlotMzr

/-! Further concrete cases: theorems of the other files, applied to concrete, non-trivial inputs, so that their hypotheses are seen to hold together. No new
theorems here. -/
namespace Dsps.Props
open Dsps Dsps.Lemmas Jnp Spec Set
open scoped BigOperators

/-! ## rounding: accumulated mass, normalisation -/

section

theorem caseTimes_mono : Monotone (![0.5, 4, 13.5] : Fin 3 → ℝ) := by
  rw [Fin.monotone_iff_le_succ]; intro i; fin_cases i <;> simp <;> norm_num

theorem caseRates_nonneg (i : Fin 3) : 0 ≤ (![1, 2, 3] : Fin 3 → ℝ) i := by fin_cases i <;> norm_num

example {out : Fin 3 → ℝ} (h : out ∈ Rounded.cumulative_mstar_formed f64 ![0.5, 4, 13.5] ![1, 2, 3]) :=
  C97_mstar_rel_error ![0.5, 4, 13.5] ![1, 2, 3] caseTimes_mono (by norm_num) caseRates_nonneg h 2 (by norm_num [binary])
example {out : Fin 3 → ℝ} (h : out ∈ Rounded.cumulative_mstar_formed (binary 24 (by norm_num)) ![0.5, 4, 13.5] ![1, 2, 3]) :=
  C97_mstar_float32 ![0.5, 4, 13.5] ![1, 2, 3] (by norm_num) caseTimes_mono (by norm_num) caseRates_nonneg h 2
example {out : Fin 3 → ℝ} (h : out ∈ Rounded.cumulative_mstar_formed (binary 24 (by norm_num)) ![0.5, 4, 13.5] ![1, 2, 3]) :=
  C97_mstar_nondecreasing (binary_monotone _ _) (binary_closed _ _) ![0.5, 4, 13.5] ![1, 2, 3] caseTimes_mono (by norm_num) caseRates_nonneg h
example {out : Fin 3 → ℝ} (h : out ∈ Rounded.normalize f64 3 ![1, 2, 3]) :=
  C98_normalized caseRates_nonneg (by norm_num [Fin.sum_univ_succ]) h
example {wt : Fin 2 × Fin 2 → ℝ} (hw : wt ∈ Rounded.ssp_weights f64 4 (fun _ _ => 1) (fun _ => 2)) {out : Fin 3 → ℝ}
    (h : out ∈ Rounded.rest_sed f64 4 (fun i _ _ => 7 + (i : ℕ)) wt 1e10) (l : Fin 3) :=
  C98_sed_mean (lo := fun _ => 7) (hi := fun _ => 8) (fun _ _ => zero_le_one) (fun _ => zero_le_two) (by norm_num [Fin.sum_univ_two]) (fun _ => by norm_num)
    (fun i _ _ => by fin_cases i <;> norm_num) (fun i _ _ => by fin_cases i <;> norm_num) (by norm_num) hw h l
example {out : Fin 2 × Fin 2 → ℝ} (h : out ∈ Rounded.ssp_weights f64 4 (fun _ _ => 1) (fun _ => 2)) :=
  C98_joint_weights (a := 0) (b := 0) (lg0 := fun _ _ => 1) (age0 := fun _ => 2) (fun _ _ => zero_le_one) (fun _ => zero_le_two)
    (by norm_num [Fin.sum_univ_two]) (fun _ _ => by simp [Fl.Within]) (fun _ => by simp [Fl.Within]) h
example {r : ℝ} (hr : r ∈ Rounded.calc_rest_flux_of_lum f64 3 ![4000, 5000, 6000] ![0, 1, 0] ![1, 2, 3]) :=
  C99_flux_relative (k := 0) (lum0 := ![1, 2, 3])
    (by rw [Fin.monotone_iff_le_succ]; intro i; fin_cases i <;> simp <;> norm_num)
    (fun i => by fin_cases i <;> simp) (fun i => by fin_cases i <;> simp) caseRates_nonneg (fun i => by simp [Fl.Within]) hr
end

/-! ## rounding: cosmology -/

example {r : ℝ} (hr : r ∈ Rounded.Ez f64 (2 ^ (-50:ℤ)) 2 0.3075 (-1.0) 0.0) :=
  C117_expansion_rate float64_ieee.machine ordinary_planck15.om (by norm_num) (by
    have h3 : Real.log (1 + 2) ≤ 2 := (Real.log_le_sub_one_of_pos (by norm_num)).trans (by norm_num)
    unfold EzCost; norm_num at h3 ⊢; linarith) hr

/-! ## rounding: metallicity relation -/

example {x s : ℝ} (hs : s ∈ Rounded.logistic_xla f64 (2 ^ (-50:ℤ)) x) := C136_logistic float64_ieee.machine hs
example {r : ℝ} (hr : r ∈ Rounded.sig_slope f64 (2 ^ (-50:ℤ)) 10 9 (-1) 10.5 1 2 0.3) := C135_sig_slope float64_ieee.machine hr
example {r : ℝ} (hr : r ∈ Rounded.mzr_model_t0 f64 f64 (2 ^ (-50:ℤ)) 10 0.05 10.5 1 0.5 0.2) :=
  (C135_mzr_t0 (logm0 := 11) (k0 := 9) float64_ieee.machine).1 r hr
example {r : ℝ} (hr : r ∈ Rounded.mzr_evolution_model f64 f64 (2 ^ (-50:ℤ)) 10 3 (-1) 0.1 8.4 (-0.1) 0.01) :=
  (C135_mzr_evolution float64_ieee.machine).1 (by norm_num) r hr
example {r : ℝ} (hr : r ∈ Rounded.mzr_model f64 f64 (2 ^ (-50:ℤ)) 10 3 0.05 10.5 1 0.5 0.2 (-1) 0.1 8.4 (-0.1) 0.01) :=
  C135_mzr_model float64_ieee.machine (by norm_num) hr
example {r : Umzr.MZRParams} (hr : r ∈ Rounded.get_bounded_mzr_params f64 f64 (Rounded.logistic (2 ^ (-50:ℤ))) Umzr.DEFAULT_MZR_U_PARAMS) :=
  C135_bounded_float64 float64_ieee hr
example {r : Umzr.MZRParams} (hr : r ∈ Rounded.get_bounded_mzr_params f64 f64 (Rounded.logistic (2 ^ (-50:ℤ))) Umzr.DEFAULT_MZR_U_PARAMS) :=
  C135_bounded_params float64_ieee.machine hr

/-! ## rounding: photometry -/

example (nu lam T : ℝ) := C128_results_exist (P := f64) (A := f64) (v := 2 ^ (-50:ℤ)) (by positivity) f64_nonempty f64_nonempty nu lam T
example (x a b g : ℝ) := C152_results_exist (d := 3) float64_ieee.machine f64_nonempty (le_refl _) ![0, 1, 1, 0] ![1, 2, 3, 4] 0.5 x a b g

section
attribute [local instance] Jnp.Dtype.float64

theorem case_rest_conditions : RestConditions (n := 1) (m := 3) f64 2 ![1000, 5000, 10000] ![1, 2, 1.5] ![4000, 5000, 6000, 7000] ![0, 1, 1, 0] := by
  have h := obsCondEx 1 one_pos (2 ^ (-50:ℤ)) (by positivity) (by norm_num) (show (2:ℝ)⁻¹ ^ 104 ≤ 1 by norm_num)
  refine ⟨?_, ?_, ?_, ?_, ⟨?_, ?_, ?_⟩, ?_, ?_⟩
  · rw [Fin.monotone_iff_le_succ]; intro i; fin_cases i <;> simp <;> norm_num
  · intro i
    have : (f64).u ≤ 1 / 2 := by norm_num [binary]
    show (2:ℝ)⁻¹ ^ 104 < _
    fin_cases i <;> simp <;> norm_num <;> linarith
  · intro i; fin_cases i <;> norm_num
  · intro i; fin_cases i <;> simp <;> norm_num
  · rw [Fin.monotone_iff_le_succ]; intro i; fin_cases i <;> simp <;> norm_num
  · intro i; fin_cases i <;> simp
  · intro i; fin_cases i <;> simp
  · simp only [Photometry.flux_ab0_at_10pc, Photometry.AB0]
    rw [trapz_eq]; simp [Fin.sum_univ_succ]; norm_num
  · intro i; fin_cases i <;> simp <;> norm_num [Fin.last]

example {r : ℝ} (hr : r ∈ Rounded.calc_rest_flux' f64 f64 3 ![1000, 5000, 10000] ![1, 2, 1.5] ![4000, 5000, 6000, 7000] ![0, 1, 1, 0]) :=
  C118_rest_flux (v := 2 ^ (-50:ℤ)) (κ := 0) float64_ieee.machine case_rest_conditions le_rfl (fun i => by simp) (by unfold restFluxCost; norm_num) hr
example {r : ℝ} (hr : r ∈ Rounded.calc_rest_mag' f64 f64 (2 ^ (-50:ℤ)) 3 ![1000, 5000, 10000] ![1, 2, 1.5] ![4000, 5000, 6000, 7000] ![0, 1, 1, 0]) :=
  C118_rest_mag (κ := 0) float64_ieee.machine case_rest_conditions le_rfl (fun i => by simp) (by unfold restFluxCost; norm_num) hr
/-- a table of dimmings at redshifts 0.5, 1 and 2 -/
example {r : ℝ} (hr : r ∈ Rounded.cosmological_dimming_from_table f64 (2 ^ (-50:ℤ)) 1.5 ![0.5, 1, 2] ![42, 44, 46]) :=
  C118_dimming_from_table (P := f64) (S := 46) float64_ieee.machine
    (by rw [Fin.monotone_iff_le_succ]; intro i; fin_cases i <;> simp <;> norm_num)
    (fun i => by
      have : (f64).u ≤ 1 / 2 := by norm_num [binary]
      show (2:ℝ)⁻¹ ^ 104 < _
      fin_cases i <;> simp <;> norm_num <;> linarith)
    (fun i => by fin_cases i <;> norm_num [abs_of_pos]) (by norm_num) hr

theorem caseMet_slope (i : Fin 1) : |((-1.5:ℝ) + (i.succ : ℕ)) - ((-1.5:ℝ) + (i.castSucc : ℕ))| ≤ 1 * (Real.logb 10 (tEx i.succ) - Real.logb 10 (tEx i.castSucc)) := by
  have e1 : Real.logb 10 (tEx i.succ) = _ := log10_tEx i.succ
  have e2 : Real.logb 10 (tEx i.castSucc) = _ := log10_tEx i.castSucc
  rw [e1, e2]
  fin_cases i
  norm_num

theorem caseMet_le (i : Fin 2) : |((-1.5:ℝ) + (i : ℕ))| ≤ 1.5 := by
  fin_cases i <;> norm_num [abs_of_neg]

/-- from the galaxy model with a metallicity history to the rest-frame magnitude -/
example {sed : Fin 3 → ℝ} {r : ℝ} (ho : sed ∈ Rounded.calc_rest_sed_sfh_table_met_table f64 (2 ^ (-50:ℤ)) ⟨3, 3, 9, 9⟩ tEx (fun _ => 1)
      (fun i => (-1.5:ℝ) + (i : ℕ)) 0.2 zGrid aEx (fun i j _ => 1 + (i * j : ℕ) / 4) 10 1e-14)
    (hr : r ∈ Rounded.calc_rest_mag f64 (2 ^ (-50:ℤ)) 3 ![1000, 5000, 10000] sed ![4000, 5000, 6000, 7000] ![0, 1, 1, 0]) :=
  C115_mag_met_table (k := 0) (m := 0) float64SfhEx (Lz := 1) (Z := 1.5) (by norm_num) (by norm_num) caseMet_slope (by norm_num) caseMet_le (by norm_num)
    (fun i => (zGrid_le i).trans (by norm_num)) (by norm_num) zGrid_edges float64PhotEx (by norm_num) (by norm_num) (by norm_num) (by norm_num) (by norm_num) ho hr

example : Rounded.calc_rest_sed_sfh_table_met_table (w := 3) f64 (2 ^ (-50:ℤ)) ⟨3, 3, 9, 9⟩ tEx (fun _ => 1)
      (fun i => (-1.5:ℝ) + (i : ℕ)) 0.2 zGrid aEx (fun i j _ => 1 + (i * j : ℕ) / 4) 10 1e-14 ≠ ∅ :=
  (sed_met_table_nonempty (A := f64) (v := 2 ^ (-50:ℤ)) (k := 0) (m := 0) (n := 0) f64_nonempty (by positivity) (d := ⟨3, 3, 9, 9⟩) (by norm_num)
    (by norm_num) (by norm_num) (by norm_num) _ _ _ _ _ _ _ _ _).ne_empty

theorem case_obs_library : ObsLibrary (k := 0) (m := 0) (p := 1) (q := 3)
    (fun i j => ![1 + (i * j : ℕ) / 4, 2 * (1 + (i * j : ℕ) / 4), 1.5 * (1 + (i * j : ℕ) / 4)]) 2 ![1000, 5000, 10000] ![4000, 5000, 6000, 7000] ![0, 1, 1, 0] 2 := by
  have hp : ∀ i j : Fin 3, (0:ℝ) ≤ ((i * j : ℕ):ℝ) / 4 := fun i j => by positivity
  refine ⟨fun i j => obsCondEx _ (by have := hp i j; linarith) _ (by positivity) (by norm_num) (show (2:ℝ)⁻¹ ^ 104 ≤ 1 by norm_num), by norm_num,
    ![1, 2, 1.5], ?_, ?_⟩
  · intro l; fin_cases l <;> simp; norm_num
  · intro i j l; fin_cases i <;> fin_cases j <;> fin_cases l <;> simp <;> norm_num

/-- and to the observed magnitude at redshift 2 -/
example {sed : Fin 3 → ℝ} {r : ℝ} (ho : sed ∈ Rounded.calc_rest_sed_sfh_table_met_table f64 (2 ^ (-50:ℤ)) ⟨3, 3, 9, 9⟩ tEx (fun _ => 1)
      (fun i => (-1.5:ℝ) + (i : ℕ)) 0.2 zGrid aEx
      (fun i j => ![1 + (i * j : ℕ) / 4, 2 * (1 + (i * j : ℕ) / 4), 1.5 * (1 + (i * j : ℕ) / 4)]) 10 1e-14)
    (hr : r ∈ Rounded.calc_obs_mag f64 f64 (2 ^ (-50:ℤ)) 3 511 ![1000, 5000, 10000] sed ![4000, 5000, 6000, 7000] ![0, 1, 1, 0] 2 0.3075 (-1.0) 0.0 0.6774) :=
  C118_obs_mag_met_table (k := 0) (m := 0) float64SfhEx (Lz := 1) (Z := 1.5) float64_ieee.1 (by norm_num) (by norm_num) caseMet_slope (by norm_num) caseMet_le
    (by norm_num) (fun i => (zGrid_le i).trans (by norm_num)) (by norm_num) zGrid_edges ordinary_planck15 case_obs_library (by norm_num) (by norm_num)
    (by norm_num) (by norm_num) (by norm_num) le_rfl ho hr

end

/-! ## dynamic shapes -/

example := C131_documented_partial (n := 2) (lgfburst := .mk [] fun _ => -1) (pk := .mk [] fun _ => 6) (mx := .mk [] fun _ => 7) (smooth := ⟨[2], fun _ => 0.5⟩)
  (ages := ⟨[2], fun _ => -3⟩) (a := -1) (b := 6) (c := 7) (w := fun _ => 0.5) (g := fun _ => -3) ⟨rfl, rfl⟩ ⟨rfl, rfl⟩ ⟨rfl, rfl⟩ ⟨rfl, fun _ => rfl⟩ ⟨rfl, fun _ => rfl⟩
example := C131_batch_copies (q := 3) (n := 2) (lgfburst := .mk [] fun _ => -1) (pk := ⟨[3, 1], fun _ => 6⟩) (mx := ⟨[3, 1], fun _ => 7⟩) (smooth := ⟨[2], fun _ => 0.5⟩)
  (ages := ⟨[2], fun _ => -3⟩) (a := -1) (b := 6) (c := 7) (w := fun _ => 0.5) (g := fun _ => -3) ⟨rfl, rfl⟩ ⟨rfl, fun _ _ => rfl⟩ ⟨rfl, fun _ _ => rfl⟩ ⟨rfl, fun _ => rfl⟩
  ⟨rfl, fun _ => rfl⟩ (by norm_num)
/-- three peaks, two ages -/
example (lgfburst mx smooth : Nd.Arr ℝ) := C131_vector_raises (q := 3) (n := 2) lgfburst mx smooth (pk := ⟨[3], fun _ => 6⟩) (ages := ⟨[2], fun _ => -3⟩) rfl rfl
  (by norm_num) (by norm_num) (by norm_num)
/-- two peaks, two ages -/
example := C131_vector_pairs (n := 2) (lgfburst := .mk [] fun _ => -1) (pk := ⟨[2], fun _ => 6⟩) (mx := ⟨[2], fun _ => 7⟩) (smooth := ⟨[2], fun _ => 0.5⟩)
  (ages := ⟨[2], fun _ => -3⟩) (a := -1) (b := fun _ => 6) (c := fun _ => 7) (w := fun _ => 0.5) (g := fun _ => -3) ⟨rfl, rfl⟩ ⟨rfl, fun _ => rfl⟩ ⟨rfl, fun _ => rfl⟩
  ⟨rfl, fun _ => rfl⟩ ⟨rfl, fun _ => rfl⟩ (by norm_num [Fin.sum_univ_two, Utils.triweight_gaussian])
example := C132_bounded (u := fun k => ⟨[5], fun _ => Umzr.DEFAULT_MZR_U_PARAMS.toArray k⟩) (s := [5]) fun _ => rfl
/-- one parameter is a vector, the others are numbers -/
example := C132_mixed_raises (u := fun k => if k = 0 then ⟨[5], fun _ => 1⟩ else ⟨[], fun _ => 1⟩) (i := 0) (j := 1) (by simp)

/-! ## equivalent widths, mixtures, response, plots -/

/-- the default continuum windows and a line excess of 3 -/
example := C133_window_sampling (n := 5) ewSolver_spec (wave := ewWave) (flux := fun i => 1 + if i = 2 then 3 else 0) (llo := 3) (lmid := 3) (lhi := 3) (a := 1) (b := 2)
  (c := 5) (d := 6) (q0 := 1) (q1 := 0) (q2 := 0) (e := 3) (Δ := 1) (by rw [Fin.monotone_iff_le_succ]; intro i; fin_cases i <;> simp [ewWave] <;> norm_num)
  (fun i => by fin_cases i <;> simp [ewWave] <;> norm_num) (by norm_num) (by norm_num [ewWave])
  le_rfl (by norm_num [ewWave, Fin.last])
  (fun i h => by fin_cases i <;> first | (simp; done) | (exfalso; revert h; simp [InWindows, ewWave]; norm_num))
  (fun i h => by fin_cases i <;> first | (exfalso; revert h; simp [ewWave]; done) | (exfalso; revert h; simp [ewWave]; norm_num; done) | simp) ewWave_three

/-- the colours of the figure -/
example : ∃ (fig : PlotMzr.Figure) (blue red : _), fig.legends.head? = some [blue, red] ∧ blue.color = exPlotEnv.coolwarm 0 := by
  obtain ⟨fig, h⟩ := exPlot_returned exPlotParams
  obtain ⟨blue, red, h1, -, -, -, -, -, -, h2⟩ := C123_colours h
  exact ⟨fig, blue, red, h1, h2⟩

section
attribute [local instance] Jnp.Dtype.float64
example := C149_between (nm := 2) (na := 2) (n := 1) (m := 2) (M := 1e10) (F := fun _ _ => caseLib 0 0) (wave := caseWave) (fw := caseFW) (ft := caseFT) (z := 1 / 2)
  (by norm_num) caseW_prob 0.3 (-1) 0 0.7 (fun _ _ => caseLib_pos 0 0) (fun _ _ _ => ⟨le_rfl, le_rfl⟩)
/-- the SED does not respond to the metallicity between -3.05 and -2.95 -/
example := C161_metallicity_sed (n := 1) (m := 0) (k := 2) (t := caseT) (s := caseS) (a := caseA) (z := caseZ) (flux := caseF) (t_obs := 13) (scatter := 0.05) (μ := -3.05)
  (μ' := -2.95) (by norm_num) (by norm_num) (by norm_num) (by norm_num) fun i => by
    have e : ∀ i : Fin 4, Utils.get_bin_edges (n := 2) caseZ (-10) 10 i.succ.castSucc = -3.75 + (i : ℕ) * 0.5 := fun i => by
      induction i using Fin.lastCases with
      | last => rw [Fin.succ_last, edges_penult (n := 2)]; norm_num [caseZ, Fin.last]
      | cast j => rw [edges_interior (n := 2)]; fin_cases j <;> norm_num [caseZ]
    rw [e]
    fin_cases i <;> norm_num
end

end Dsps.Props
