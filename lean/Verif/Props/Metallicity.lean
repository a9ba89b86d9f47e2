import Verif.Model.Umzr
import Verif.Model.Mzr
import Verif.Lemmas.SigSlope
import Verif.Props.Utils
import Mathlib.Tactic.FinCases
import Mathlib.Analysis.Complex.ExponentialBounds
import Verif.Cases

/-! Properties C32–C36: the mass-metallicity relation. -/
namespace Dsps.Props
open Jnp Dsps.Utils Dsps.Lemmas

/-- The documented bounds (umzr.MZR_PBOUNDS), spelled out, for the eight parameters with constant bounds. -/
def MzrSquareBounds (p : Umzr.MZRParams) : Prop :=
  (-1 < p.mzr_t0_ytp ∧ p.mzr_t0_ytp < 0.25) ∧ (10.25 < p.mzr_t0_x0 ∧ p.mzr_t0_x0 < 10.75) ∧
  (0.5 < p.mzr_t0_k ∧ p.mzr_t0_k < 2) ∧ (0.1 < p.mzr_t0_slope_lo ∧ p.mzr_t0_slope_lo < 1) ∧
  (-2 < p.c0_y_at_tlook_c ∧ p.c0_y_at_tlook_c < -1) ∧ (0 < p.c1_y_at_tlook_c ∧ p.c1_y_at_tlook_c < 0.5) ∧
  (-1.5 < p.c0_early_time_slope ∧ p.c0_early_time_slope < -0.5) ∧ (0 < p.c1_early_time_slope ∧ p.c1_early_time_slope < 0.5)

/-- The image of the transformation: square bounds for eight parameters, `0 < slope_hi < slope_lo` for the ninth. -/
def MzrAdmissible (p : Umzr.MZRParams) : Prop :=
  MzrSquareBounds p ∧ 0 < p.mzr_t0_slope_hi ∧ p.mzr_t0_slope_hi < p.mzr_t0_slope_lo

section
open Umzr

theorem square_bounds (u : ℝ) (b : ℝ × ℝ) (h : b.1 < b.2) :
    b.1 < get_square_bounded_param u b ∧ get_square_bounded_param u b < b.2 :=
  (C07_sigmoid_bounds _ _ _ _ (by norm_num [BOUNDING_K]) h).1 u

/-! ## C32 -/

/-- C32: eight parameters strictly inside MZR_PBOUNDS, and `0 < slope_hi < slope_lo`, for every real vector. -/
theorem C32_mzr_bounds_partial (u : MZRUParams) : MzrAdmissible (get_bounded_mzr_params u) := by
  have hb : ∀ i : Fin 9, (MZR_PBDICT i).1 < (MZR_PBDICT i).2 := by
    intro i; fin_cases i <;> norm_num [MZR_PBDICT]
  have h := fun i : Fin 9 => square_bounds (u.toArray i) (MZR_PBDICT i) (hb i)
  set p := get_bounded_mzr_params u with hpdef
  have h0 : (-1.0:ℝ) < p.mzr_t0_ytp ∧ p.mzr_t0_ytp < (0.25:ℝ) := h 0
  have h1 : (10.25:ℝ) < p.mzr_t0_x0 ∧ p.mzr_t0_x0 < (10.75:ℝ) := h 1
  have h2 : (0.5:ℝ) < p.mzr_t0_k ∧ p.mzr_t0_k < (2:ℝ) := h 2
  have h3 : (0.1:ℝ) < p.mzr_t0_slope_lo ∧ p.mzr_t0_slope_lo < (1.0:ℝ) := h 3
  have h5 : (-2.0:ℝ) < p.c0_y_at_tlook_c ∧ p.c0_y_at_tlook_c < (-1.0:ℝ) := h 5
  have h6 : (0.0:ℝ) < p.c1_y_at_tlook_c ∧ p.c1_y_at_tlook_c < (0.5:ℝ) := h 6
  have h7 : (-1.5:ℝ) < p.c0_early_time_slope ∧ p.c0_early_time_slope < (-0.5:ℝ) := h 7
  have h8 : (0.0:ℝ) < p.c1_early_time_slope ∧ p.c1_early_time_slope < (0.5:ℝ) := h 8
  have hh : (0.0:ℝ) < p.mzr_t0_slope_hi ∧ p.mzr_t0_slope_hi < p.mzr_t0_slope_lo :=
    (C07_sigmoid_bounds 0.0 BOUNDING_K 0.0 p.mzr_t0_slope_lo (by norm_num [BOUNDING_K]) (by linarith [h3.1])).1
      u.u_mzr_t0_slope_hi
  refine ⟨⟨?_, ?_, ?_, ?_, ?_, ?_, ?_, ?_⟩, ?_, hh.2⟩
  · exact ⟨by linarith [h0.1], h0.2⟩
  · exact h1
  · exact h2
  · exact ⟨h3.1, by linarith [h3.2]⟩
  · exact ⟨by linarith [h5.1], by linarith [h5.2]⟩
  · exact ⟨by linarith [h6.1], h6.2⟩
  · exact h7
  · exact ⟨by linarith [h8.1], h8.2⟩
  · linarith [hh.1]

/-! ## C33 -/

/-- C33: unbounded → bounded → unbounded is the identity on ℝ⁹. -/
theorem C33_u_roundtrip (u : MZRUParams) : get_unbounded_mzr_params (get_bounded_mzr_params u) = u := by
  have hadm := C32_mzr_bounds_partial u
  have key : ∀ (v : ℝ) (b : ℝ × ℝ), b.1 ≠ b.2 → get_square_unbounded_param (get_square_bounded_param v b) b = v :=
    fun v b hb => C08_inverse_sigmoid_sigmoid _ _ _ _ _ (by norm_num [BOUNDING_K]) hb
  have hb : ∀ i : Fin 9, (MZR_PBDICT i).1 ≠ (MZR_PBDICT i).2 := by
    intro i; fin_cases i <;> norm_num [MZR_PBDICT]
  ext
  · exact key _ _ (hb 0)
  · exact key _ _ (hb 1)
  · exact key _ _ (hb 2)
  · exact key _ _ (hb 3)
  · refine C08_inverse_sigmoid_sigmoid _ _ _ _ _ (by norm_num [BOUNDING_K]) ?_
    have h1 : (0:ℝ) < (get_bounded_mzr_params u).mzr_t0_slope_lo := hadm.2.1.trans hadm.2.2
    have e4 : (MZR_PBDICT 4).1 = 0 := by show (0.0:ℝ) = 0; norm_num
    rw [e4]; exact h1.ne
  · exact key _ _ (hb 5)
  · exact key _ _ (hb 6)
  · exact key _ _ (hb 7)
  · exact key _ _ (hb 8)

/-- C33: bounded → unbounded → bounded is the identity on every admissible vector. -/
theorem C33_roundtrip (p : MZRParams) (hp : MzrAdmissible p) : get_bounded_mzr_params (get_unbounded_mzr_params p) = p := by
  obtain ⟨⟨h0, h1, h2, h3, h5, h6, h7, h8⟩, h4, h4'⟩ := hp
  have key : ∀ (v : ℝ) (b : ℝ × ℝ), b.1 < v ∧ v < b.2 → get_square_bounded_param (get_square_unbounded_param v b) b = v :=
    fun v b hb => (C08_sigmoid_inverse_sigmoid _ _ _ _ _ (by norm_num [BOUNDING_K]) (Or.inl hb)).2
  have k3 : get_square_bounded_param (get_square_unbounded_param p.mzr_t0_slope_lo (MZR_PBDICT 3)) (MZR_PBDICT 3) =
      p.mzr_t0_slope_lo := key _ _ (show (0.1:ℝ) < _ ∧ _ < (1.0:ℝ) from ⟨by linarith [h3.1], by linarith [h3.2]⟩)
  ext
  · exact key p.mzr_t0_ytp (MZR_PBDICT 0) (show (-1.0:ℝ) < _ ∧ _ < (0.25:ℝ) from ⟨by linarith [h0.1], by linarith [h0.2]⟩)
  · exact key p.mzr_t0_x0 (MZR_PBDICT 1) (show (10.25:ℝ) < _ ∧ _ < (10.75:ℝ) from ⟨by linarith [h1.1], by linarith [h1.2]⟩)
  · exact key p.mzr_t0_k (MZR_PBDICT 2) (show (0.5:ℝ) < _ ∧ _ < (2:ℝ) from ⟨by linarith [h2.1], by linarith [h2.2]⟩)
  · exact k3
  · have e4 : (MZR_PBDICT 4).1 = 0 := by show (0.0:ℝ) = 0; norm_num
    have := (C08_sigmoid_inverse_sigmoid p.mzr_t0_slope_hi 0.0 BOUNDING_K (MZR_PBDICT 4).1 p.mzr_t0_slope_lo
      (by norm_num [BOUNDING_K]) (Or.inl ⟨by rw [e4]; exact h4, h4'⟩)).2
    refine Eq.trans ?_ this
    show Utils.sigmoid _ _ _ _ (get_square_bounded_param (get_square_unbounded_param p.mzr_t0_slope_lo (MZR_PBDICT 3)) (MZR_PBDICT 3)) = _
    rw [k3]
    rfl
  · exact key p.c0_y_at_tlook_c (MZR_PBDICT 5) (show (-2.0:ℝ) < _ ∧ _ < (-1.0:ℝ) from ⟨by linarith [h5.1], by linarith [h5.2]⟩)
  · exact key p.c1_y_at_tlook_c (MZR_PBDICT 6) (show (0.0:ℝ) < _ ∧ _ < (0.5:ℝ) from ⟨by linarith [h6.1], by linarith [h6.2]⟩)
  · exact key p.c0_early_time_slope (MZR_PBDICT 7) (show (-1.5:ℝ) < _ ∧ _ < (-0.5:ℝ) from ⟨by linarith [h7.1], by linarith [h7.2]⟩)
  · exact key p.c1_early_time_slope (MZR_PBDICT 8) (show (0.0:ℝ) < _ ∧ _ < (0.5:ℝ) from ⟨by linarith [h8.1], by linarith [h8.2]⟩)

theorem sigmoid_odds {u x0 lo hi : ℝ} (h : lo < hi) (p : ℝ) (hp : p = Utils.sigmoid u x0 BOUNDING_K lo hi) :
    (p - lo) / (hi - p) = Real.exp ((u - x0) / 10) := by
  have e : Utils.sigmoid u x0 BOUNDING_K lo hi = lo + (hi - lo) * (1 / (1 + Real.exp (-(0.1 * (u - x0))))) := by
    rw [Utils.sigmoid, Jnp.sigmoid, BOUNDING_K]
  have e2 : Real.exp (-(0.1 * (u - x0))) = (Real.exp ((u - x0) / 10))⁻¹ := by rw [← Real.exp_neg]; congr 1; ring
  rw [hp, e, e2]
  have hX := Real.exp_pos ((u - x0) / 10)
  generalize Real.exp ((u - x0) / 10) = X at *
  have h1 : hi - lo ≠ 0 := by linarith
  have h2 : hi - (lo + (hi - lo) * (1 / (1 + X⁻¹))) = (hi - lo) / (1 + X) := by field_simp; ring
  rw [h2]
  field_simp
  ring

/-- C33: the transformation explicitly. With `odds p lo hi = (p - lo) / (hi - p)`, an unbounded parameter `u` is the centre of the bounds plus ten times the
logarithm of the odds of its bounded value; the bounds of `slope_hi` are zero and `slope_lo`, and its centre is zero. -/
theorem C33_explicit (u : MZRUParams) :
    let p := get_bounded_mzr_params u
    let odds := fun p lo hi : ℝ => (p - lo) / (hi - p)
    odds p.mzr_t0_ytp (-1) 0.25 = Real.exp ((u.u_mzr_t0_ytp - -0.375) / 10) ∧
    odds p.mzr_t0_x0 10.25 10.75 = Real.exp ((u.u_mzr_t0_x0 - 10.5) / 10) ∧
    odds p.mzr_t0_k 0.5 2 = Real.exp ((u.u_mzr_t0_k - 1.25) / 10) ∧
    odds p.mzr_t0_slope_lo 0.1 1 = Real.exp ((u.u_mzr_t0_slope_lo - 0.55) / 10) ∧
    odds p.mzr_t0_slope_hi 0 p.mzr_t0_slope_lo = Real.exp (u.u_mzr_t0_slope_hi / 10) ∧
    odds p.c0_y_at_tlook_c (-2) (-1) = Real.exp ((u.u_c0_y_at_tlook_c - -1.5) / 10) ∧
    odds p.c1_y_at_tlook_c 0 0.5 = Real.exp ((u.u_c1_y_at_tlook_c - 0.25) / 10) ∧
    odds p.c0_early_time_slope (-1.5) (-0.5) = Real.exp ((u.u_c0_early_time_slope - -1) / 10) ∧
    odds p.c1_early_time_slope 0 0.5 = Real.exp ((u.u_c1_early_time_slope - 0.25) / 10) := by
  have hadm := C32_mzr_bounds_partial u
  have hlo : (0.0:ℝ) < (get_bounded_mzr_params u).mzr_t0_slope_lo := by have := hadm.2; norm_num; linarith [this.1, this.2]
  have g : ∀ (lo hi mid v q lo' hi' : ℝ), lo' = lo → hi' = hi → mid = 0.5 * (lo' + hi') → lo < hi → q = get_square_bounded_param v (lo', hi') →
      (q - lo) / (hi - q) = Real.exp ((v - mid) / 10) := by
    rintro lo hi mid v q lo' hi' rfl rfl rfl h hq
    exact sigmoid_odds h q hq
  refine ⟨g _ _ _ _ _ (-1.0) 0.25 (by norm_num) rfl (by norm_num) (by norm_num) rfl, g _ _ _ _ _ 10.25 10.75 rfl rfl (by norm_num) (by norm_num) rfl,
    g _ _ _ _ _ 0.5 2 rfl rfl (by norm_num) (by norm_num) rfl, g _ _ _ _ _ 0.1 1.0 rfl (by norm_num) (by norm_num) (by norm_num) rfl, ?_,
    g _ _ _ _ _ (-2.0) (-1.0) (by norm_num) (by norm_num) (by norm_num) (by norm_num) rfl, g _ _ _ _ _ 0.0 0.5 (by norm_num) rfl (by norm_num) (by norm_num) rfl,
    g _ _ _ _ _ (-1.5) (-0.5) rfl rfl (by norm_num) (by norm_num) rfl, g _ _ _ _ _ 0.0 0.5 (by norm_num) rfl (by norm_num) (by norm_num) rfl⟩
  have := sigmoid_odds hlo _ (rfl : (get_bounded_mzr_params u).mzr_t0_slope_hi =
    Utils.sigmoid u.u_mzr_t0_slope_hi 0.0 BOUNDING_K 0.0 (get_bounded_mzr_params u).mzr_t0_slope_lo)
  have e0 : (0.0:ℝ) = 0 := by norm_num
  rwa [e0, sub_zero u.u_mzr_t0_slope_hi] at this

theorem default_mzr_admissible : MzrAdmissible DEFAULT_MZR_PARAMS := by
  norm_num [MzrAdmissible, MzrSquareBounds, DEFAULT_MZR_PARAMS]

/-- C33: the shipped unbounded defaults reproduce the shipped defaults. -/
theorem C33_default : get_bounded_mzr_params DEFAULT_MZR_U_PARAMS = DEFAULT_MZR_PARAMS :=
  C33_roundtrip _ default_mzr_admissible

/-- case of C33_roundtrip: the default parameters are admissible -/
example := C33_roundtrip Umzr.DEFAULT_MZR_PARAMS default_mzr_admissible

/-- C32: every admissible vector is reached, so the image is exactly the admissible set. -/
theorem C32_mzr_image (p : MZRParams) : MzrAdmissible p ↔ ∃ u, get_bounded_mzr_params u = p :=
  ⟨fun h => ⟨_, C33_roundtrip p h⟩, fun ⟨u, hu⟩ => hu ▸ C32_mzr_bounds_partial u⟩

/-- C32 is false for `mzr_t0_slope_hi`: the transformation can return values above the documented upper bound 0.3. -/
theorem C32_slope_hi_exceeds : ∃ u, (0.3:ℝ) < (get_bounded_mzr_params u).mzr_t0_slope_hi ∧ (MZR_PBDICT 4).2 = 0.3 := by
  have hp : MzrAdmissible { DEFAULT_MZR_PARAMS with mzr_t0_slope_lo := 0.9, mzr_t0_slope_hi := 0.5 } := by
    norm_num [MzrAdmissible, MzrSquareBounds, DEFAULT_MZR_PARAMS]
  refine ⟨get_unbounded_mzr_params { DEFAULT_MZR_PARAMS with mzr_t0_slope_lo := 0.9, mzr_t0_slope_hi := 0.5 }, ?_, rfl⟩
  rw [C33_roundtrip _ hp]
  norm_num

/-! ## C34 -/

/-- C34 (umzr): evolution never raises the metallicity above the z=0 relation. -/
theorem C34_umzr_le_t0 (logsm t : ℝ) (p : MZRParams) :
    mzr_model logsm t p ≤
      mzr_model_t0 logsm p.mzr_t0_ytp p.mzr_t0_x0 p.mzr_t0_k p.mzr_t0_slope_lo p.mzr_t0_slope_hi := by
  simp only [mzr_model, mzr_evolution_model, delta_logz_at_t_lookback]
  have : ∀ x : ℝ, (if x > 0 then 0 else x) ≤ 0 := fun x => by
    split_ifs with h
    · exact le_rfl
    · exact not_lt.mp h
  linarith [this (delta_logz_vs_t_lookback (if MZR_EVOL_T0 - t < 0 then 0 else MZR_EVOL_T0 - t)
    (get_p_at_lgmstar logsm p.c0_y_at_tlook_c p.c1_y_at_tlook_c p.c0_early_time_slope p.c1_early_time_slope).1
    (get_p_at_lgmstar logsm p.c0_y_at_tlook_c p.c1_y_at_tlook_c p.c0_early_time_slope p.c1_early_time_slope).2 MZR_EVOL_K)]

/-- C34 (umzr): the relation no longer evolves after 12.5 Gyr. -/
theorem C34_umzr_late (logsm t t' : ℝ) (ht : 12.5 ≤ t) (ht' : 12.5 ≤ t') (p : MZRParams) :
    mzr_model logsm t p = mzr_model logsm t' p := by
  have e : ∀ s : ℝ, 12.5 ≤ s → (if MZR_EVOL_T0 - s < 0 then (0:ℝ) else MZR_EVOL_T0 - s) = 0 := by
    intro s hs
    split_ifs with h
    · rfl
    · unfold MZR_EVOL_T0 at *; linarith
  simp only [mzr_model, mzr_evolution_model, e t ht, e t' ht']

/-- case: 12.6 and 13.8 Gyr -/
example := C34_umzr_late 10 12.6 13.8 (by norm_num) (by norm_num) Umzr.DEFAULT_MZR_PARAMS

/-- C34 (umzr): if the relation is above the clip (both lookback anchors non-negative) there is no evolution at all. -/
theorem C34_umzr_no_evolution (logsm t : ℝ) (p : MZRParams) (ht : t ≤ 12.5)
    (hy : 0 ≤ p.c0_y_at_tlook_c + p.c1_y_at_tlook_c * logsm)
    (hs : 0 ≤ p.c0_early_time_slope + p.c1_early_time_slope * logsm) (hlook : 12.5 - t ≥ 8.44) :
    mzr_model logsm t p =
      mzr_model_t0 logsm p.mzr_t0_ytp p.mzr_t0_x0 p.mzr_t0_k p.mzr_t0_slope_lo p.mzr_t0_slope_hi := by
  have hT : (if MZR_EVOL_T0 - t < 0 then (0:ℝ) else MZR_EVOL_T0 - t) = 12.5 - t := by
    split_ifs with h
    · unfold MZR_EVOL_T0 at h; linarith
    · rfl
  simp only [mzr_model, mzr_evolution_model, delta_logz_at_t_lookback, get_p_at_lgmstar, hT, delta_logz_vs_t_lookback]
  set y := p.c0_y_at_tlook_c + p.c1_y_at_tlook_c * logsm
  set s := p.c0_early_time_slope + p.c1_early_time_slope * logsm
  have hlate : 0 ≤ y / TLOOK_C := div_nonneg hy (by norm_num [TLOOK_C])
  have hσ0 := sigmoid_pos (MZR_EVOL_K * ((12.5 - t) - TLOOK_C))
  have hσ1 := sigmoid_lt_one (MZR_EVOL_K * ((12.5 - t) - TLOOK_C))
  have hd : 0 ≤ (12.5 - t) - MZR_DT_XTP := by unfold MZR_DT_XTP; linarith
  have hnn : 0 ≤ sig_slope (12.5 - t) MZR_DT_XTP y TLOOK_C MZR_EVOL_K (y / TLOOK_C) s := by
    simp only [sig_slope, Utils.sigmoid]
    have : 0 ≤ y / TLOOK_C + (s - y / TLOOK_C) * Jnp.sigmoid (MZR_EVOL_K * ((12.5 - t) - TLOOK_C)) := by
      have : y / TLOOK_C + (s - y / TLOOK_C) * Jnp.sigmoid (MZR_EVOL_K * ((12.5 - t) - TLOOK_C)) =
        y / TLOOK_C * (1 - Jnp.sigmoid (MZR_EVOL_K * ((12.5 - t) - TLOOK_C))) +
          s * Jnp.sigmoid (MZR_EVOL_K * ((12.5 - t) - TLOOK_C)) := by ring
      rw [this]
      exact add_nonneg (mul_nonneg hlate (by linarith)) (mul_nonneg hs hσ0.le)
    exact add_nonneg hy (mul_nonneg this hd)
  have : (if sig_slope (12.5 - t) MZR_DT_XTP y TLOOK_C MZR_EVOL_K (y / TLOOK_C) s > 0 then (0:ℝ) else
      sig_slope (12.5 - t) MZR_DT_XTP y TLOOK_C MZR_EVOL_K (y / TLOOK_C) s) = 0 := by
    split_ifs with h
    · rfl
    · exact le_antisymm (not_lt.mp h) hnn
  rw [this, add_zero]

/-- case: a massive galaxy at 2 Gyr -/
example := C34_umzr_no_evolution 15 2 Umzr.DEFAULT_MZR_PARAMS (by norm_num) (by norm_num [Umzr.DEFAULT_MZR_PARAMS])
  (by norm_num [Umzr.DEFAULT_MZR_PARAMS]) (by norm_num)

example : ∃ (logsm t : ℝ) (p : MZRParams), t ≤ 12.5 ∧ 0 ≤ p.c0_y_at_tlook_c + p.c1_y_at_tlook_c * logsm ∧
    0 ≤ p.c0_early_time_slope + p.c1_early_time_slope * logsm ∧ 12.5 - t ≥ 8.44 :=
  ⟨15, 2, DEFAULT_MZR_PARAMS, by norm_num, by norm_num [DEFAULT_MZR_PARAMS], by norm_num [DEFAULT_MZR_PARAMS], by norm_num⟩

end

/-- C34 (mzr): same for the other implementation. -/
theorem C34_mzr_le_t0 (logsm t y0 x0 k lo hi c0 c1 tc s0 s1 : ℝ) :
    Mzr.mzr_model logsm t y0 x0 k lo hi c0 c1 tc s0 s1 ≤ Mzr.mzr_model_t0 logsm y0 x0 k lo hi := by
  simp only [Mzr.mzr_model, Mzr.mzr_evolution_model, Mzr.delta_logz_at_t_lookback]
  have : ∀ x : ℝ, (if x > 0 then 0 else x) ≤ 0 := fun x => by
    split_ifs with h
    · exact le_rfl
    · exact not_lt.mp h
  linarith [this (Mzr.delta_logz_vs_t_lookback (if Mzr.MZR_EVOL_T0 - t < 0 then 0 else Mzr.MZR_EVOL_T0 - t)
    (Mzr.get_p_at_lgmstar logsm c0 c1 tc s0 s1).1 (Mzr.get_p_at_lgmstar logsm c0 c1 tc s0 s1).2.1
    (Mzr.get_p_at_lgmstar logsm c0 c1 tc s0 s1).2.2 Mzr.MZR_EVOL_K)]

/-- C34 (mzr): constant after 12.5 Gyr. -/
theorem C34_mzr_late (logsm t t' y0 x0 k lo hi c0 c1 tc s0 s1 : ℝ) (ht : 12.5 ≤ t) (ht' : 12.5 ≤ t') :
    Mzr.mzr_model logsm t y0 x0 k lo hi c0 c1 tc s0 s1 = Mzr.mzr_model logsm t' y0 x0 k lo hi c0 c1 tc s0 s1 := by
  have e : ∀ s : ℝ, 12.5 ≤ s → (if Mzr.MZR_EVOL_T0 - s < 0 then (0:ℝ) else Mzr.MZR_EVOL_T0 - s) = 0 := by
    intro s hs
    split_ifs with h
    · rfl
    · unfold Mzr.MZR_EVOL_T0 at *; linarith
  simp only [Mzr.mzr_model, Mzr.mzr_evolution_model, e t ht, e t' ht']

/-- case: 12.6 and 13.8 Gyr -/
example := C34_mzr_late 10 12.6 13.8 0.05 10.5 1 0.4 0.1 (-1.45) 0.13 8.44 (-0.95) 0.075 (by norm_num) (by norm_num)

/-! ## C35 -/

/-- C35: the two implementations are the same function whenever x0 = 10.5 and tlook_c = 8.44. -/
theorem C35_mzr_eq_umzr (logsm t y0 k lo hi c0 c1 s0 s1 : ℝ) :
    Mzr.mzr_model logsm t y0 10.5 k lo hi c0 c1 8.44 s0 s1 =
      Umzr.mzr_model logsm t ⟨y0, 10.5, k, lo, hi, c0, c1, s0, s1⟩ := by
  simp only [Mzr.mzr_model, Umzr.mzr_model, Mzr.mzr_evolution_model, Umzr.mzr_evolution_model,
    Mzr.delta_logz_at_t_lookback, Umzr.delta_logz_at_t_lookback, Mzr.get_p_at_lgmstar, add_zero]
  rfl

/-- C35: in particular the two default parameter sets describe the same relation. -/
theorem C35_defaults (logsm t : ℝ) :
    let d := Mzr.DEFAULT_MET_PARAMS
    Mzr.mzr_model logsm t (d 0) (d 1) (d 2) (d 3) (d 4) (d 5) (d 6) (d 7) (d 8) (d 9) =
      Umzr.mzr_model logsm t Umzr.DEFAULT_MZR_PARAMS :=
  C35_mzr_eq_umzr logsm t 0.05 1 0.4 0.1 (-1.455) 0.13 (-0.959) 0.067242

/-- C35: the last entry of the older default array is the scatter, 0.1 dex, the same constant in both files. -/
theorem C35_scatter : Mzr.DEFAULT_MET_PARAMS 10 = 0.1 ∧ Umzr.MZR_SCATTER = 0.1 := ⟨rfl, rfl⟩

/-- C35: the z=0 relations differ by a constant shift when x0 ≠ 10.5: `umzr` pivots at 10.5, `mzr` at x0. -/
theorem C35_t0_shift (logsm y0 x0 k lo hi : ℝ) :
    Umzr.mzr_model_t0 logsm y0 x0 k lo hi - Mzr.mzr_model_t0 logsm y0 x0 k lo hi =
      (lo + (hi - lo) * (1 / (1 + Real.exp (-(k * (logsm - x0)))))) * (x0 - 10.5) := by
  simp only [Mzr.mzr_model_t0, Umzr.mzr_model_t0, sig_slope, Utils.sigmoid, Jnp.sigmoid, Umzr.MZR_T0_XTP, Mzr.LGMET_SOLAR,
    Umzr.LGMET_SOLAR]
  ring

/-! ## C36 -/

/-- C36, exact criterion: for slopes `0 < hi < lo` (all admissible parameters) the z=0 relation is non-decreasing in
mass if and only if `ln(lo/hi) ≤ 2 + 4 hi/(lo-hi) - k (x0 - 10.5)`. -/
theorem C36_mzr_monotone_iff (ytp x0 k lo hi : ℝ) (hk : 0 < k) (hhi : 0 < hi) (hlo : hi < lo) :
    Monotone (fun logsm => Umzr.mzr_model_t0 logsm ytp x0 k lo hi) ↔
      Real.log (lo / hi) ≤ 2 + 4 * hi / (lo - hi) - k * (x0 - 10.5) := by
  rw [← sig_slope_monotone_iff (xtp := 10.5) ytp hk hhi hlo]
  constructor
  · intro h a b hab
    have := h hab
    simp only [Umzr.mzr_model_t0, Umzr.MZR_T0_XTP] at this
    simpa using this
  · intro h a b hab
    have := h hab
    simp only [Umzr.mzr_model_t0, Umzr.MZR_T0_XTP]
    simpa using this

/-- case: slopes 0.4 and 0.1 -/
example := C36_mzr_monotone_iff 0.05 10.5 1 0.4 0.1 (by norm_num) (by norm_num) (by norm_num)

/-- C36, simple sufficient condition: admissible parameters whose slopes differ by at most a factor 4 (the default) are
monotone; see `C36_mzr_monotone_iff` for the exact boundary. -/
theorem C36_mzr_monotone_partial (p : Umzr.MZRParams) (hp : MzrAdmissible p)
    (h4 : p.mzr_t0_slope_lo ≤ 4 * p.mzr_t0_slope_hi) :
    Monotone (fun logsm => Umzr.mzr_model_t0 logsm p.mzr_t0_ytp p.mzr_t0_x0 p.mzr_t0_k p.mzr_t0_slope_lo p.mzr_t0_slope_hi) := by
  obtain ⟨⟨-, ⟨hx1, hx2⟩, ⟨hk1, hk2⟩, -⟩, h4a, h4b⟩ := hp
  rw [C36_mzr_monotone_iff _ _ _ _ _ (by linarith) h4a h4b]
  have hd : 0 < p.mzr_t0_slope_lo - p.mzr_t0_slope_hi := by linarith
  have h1 : Real.log (p.mzr_t0_slope_lo / p.mzr_t0_slope_hi) ≤ Real.log 4 := by
    apply Real.log_le_log (div_pos (by linarith) h4a)
    rw [div_le_iff₀ h4a]; exact h4
  have h2 : Real.log 4 < 1.4 := by
    have : (4:ℝ) = 2 ^ 2 := by norm_num
    rw [this, Real.log_pow]; have := Real.log_two_lt_d9; norm_num; linarith
  have h3 : 0 < 4 * p.mzr_t0_slope_hi / (p.mzr_t0_slope_lo - p.mzr_t0_slope_hi) := by positivity
  have h5 : p.mzr_t0_k * (p.mzr_t0_x0 - 10.5) ≤ 0.5 := by
    rcases le_total p.mzr_t0_x0 10.5 with h | h <;> nlinarith
  linarith

/-- case: the default parameters -/
example := C36_mzr_monotone_partial Umzr.DEFAULT_MZR_PARAMS default_mzr_admissible (by norm_num [Umzr.DEFAULT_MZR_PARAMS])

example : MzrAdmissible Umzr.DEFAULT_MZR_PARAMS ∧
    Umzr.DEFAULT_MZR_PARAMS.mzr_t0_slope_lo ≤ 4 * Umzr.DEFAULT_MZR_PARAMS.mzr_t0_slope_hi :=
  ⟨default_mzr_admissible, by norm_num [Umzr.DEFAULT_MZR_PARAMS]⟩

/-- C36 is false on part of the admissible region: parameters (reachable from unbounded ones) for which metallicity
decreases with mass somewhere. -/
theorem C36_not_monotone : ∃ u : Umzr.MZRUParams,
    let p := Umzr.get_bounded_mzr_params u
    ¬ Monotone (fun logsm => Umzr.mzr_model_t0 logsm p.mzr_t0_ytp p.mzr_t0_x0 p.mzr_t0_k p.mzr_t0_slope_lo p.mzr_t0_slope_hi) := by
  have hp : MzrAdmissible { Umzr.DEFAULT_MZR_PARAMS with mzr_t0_slope_lo := 0.8, mzr_t0_slope_hi := 0.0125 } := by
    norm_num [MzrAdmissible, MzrSquareBounds, Umzr.DEFAULT_MZR_PARAMS]
  refine ⟨Umzr.get_unbounded_mzr_params
    { Umzr.DEFAULT_MZR_PARAMS with mzr_t0_slope_lo := 0.8, mzr_t0_slope_hi := 0.0125 }, ?_⟩
  rw [C33_roundtrip _ hp]
  show ¬ Monotone _
  rw [C36_mzr_monotone_iff _ _ _ _ _ (by norm_num [Umzr.DEFAULT_MZR_PARAMS]) (by norm_num) (by norm_num)]
  have e : (0.8:ℝ) / 0.0125 = 2 ^ 6 := by norm_num
  simp only [Umzr.DEFAULT_MZR_PARAMS, e, Real.log_pow]
  have := Real.log_two_gt_d9
  norm_num
  linarith

/-- C36 for `mzr.mzr_model_t0` (pivot at x0): exact criterion. -/
theorem C36_mzr_module_monotone_iff (y0 x0 k lo hi : ℝ) (hk : 0 < k) (hhi : 0 < hi) (hlo : hi < lo) :
    Monotone (fun logsm => Mzr.mzr_model_t0 logsm y0 x0 k lo hi) ↔ Real.log (lo / hi) ≤ 2 + 4 * hi / (lo - hi) := by
  have h := sig_slope_monotone_iff (xtp := x0) (x0 := x0) y0 hk hhi hlo
  rw [sub_self, mul_zero, sub_zero] at h
  rw [← h]
  constructor
  · intro h a b hab
    have := h hab
    simp only [Mzr.mzr_model_t0] at this
    simpa using this
  · intro h a b hab
    have := h hab
    simp only [Mzr.mzr_model_t0]
    simpa using this

/-- case: slopes 0.4 and 0.1 -/
example := C36_mzr_module_monotone_iff 0.05 10.5 1 0.4 0.1 (by norm_num) (by norm_num) (by norm_num)

end Dsps.Props
