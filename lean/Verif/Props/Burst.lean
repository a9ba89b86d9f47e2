import Verif.Model.Diffburst
import Verif.Spec
import Verif.Props.Utils
import Verif.Props.Triweight
import Mathlib.Tactic.FinCases
import Verif.Cases

/-! Properties C27–C31: bursts. -/
namespace Dsps.Props
open Jnp Dsps.Utils Dsps.Diffburst Spec
open scoped BigOperators

variable {n : ℕ}

/-- The documented physical range of the burst parameters. -/
def BurstInBounds (p : BurstParams) : Prop :=
  (-8 < p.lgfburst ∧ p.lgfburst < -1) ∧ (5 < p.lgyr_peak ∧ p.lgyr_peak < 8) ∧
    (p.lgyr_peak + 1 < p.lgyr_max ∧ p.lgyr_max < 9)

/-! ## C27 -/

/-- C27: every triple of reals maps strictly inside the physical bounds. -/
theorem C27_burst_bounds (u : BurstUParams) : BurstInBounds (get_params_from_u_params u) := by
  have h1 := (C07_sigmoid_bounds LGFB_X0 LGFB_K LGFBURST_MIN LGFBURST_MAX (by norm_num [LGFB_K])
    (by norm_num [LGFBURST_MIN, LGFBURST_MAX])).1 u.u_lgfburst
  have h2 := (C07_sigmoid_bounds (0.5 * ((LGAGE_MAX - DLGAGE_MIN) + LGYR_PEAK_MIN)) LGAGE_K LGYR_PEAK_MIN
    (LGAGE_MAX - DLGAGE_MIN) (by norm_num [LGAGE_K]) (by norm_num [LGAGE_MAX, DLGAGE_MIN, LGYR_PEAK_MIN])).1 u.u_lgyr_peak
  have e : LGAGE_MAX - DLGAGE_MIN = 8 := by norm_num [LGAGE_MAX, DLGAGE_MIN]
  have hp : get_lgyr_peak_from_u_lgyr_peak u.u_lgyr_peak < 8 := by
    have := h2.2; rw [e] at this
    simpa [get_lgyr_peak_from_u_lgyr_peak, e] using this
  have hp' : 5 < get_lgyr_peak_from_u_lgyr_peak u.u_lgyr_peak := by
    have := h2.1
    have e5 : LGYR_PEAK_MIN = 5 := by norm_num [LGYR_PEAK_MIN]
    simp only [get_lgyr_peak_from_u_lgyr_peak]
    linarith
  set p := get_lgyr_peak_from_u_lgyr_peak u.u_lgyr_peak with hpdef
  have h3 := (C07_sigmoid_bounds (0.5 * (LGAGE_MAX + (p + DLGAGE_MIN))) LGAGE_K (p + DLGAGE_MIN) LGAGE_MAX
    (by norm_num [LGAGE_K]) (by norm_num [LGAGE_MAX, DLGAGE_MIN]; linarith)).1 u.u_lgyr_max
  refine ⟨?_, ⟨hp', hp⟩, ?_⟩
  · have a : LGFBURST_MIN = -8 := by norm_num [LGFBURST_MIN]
    have b : LGFBURST_MAX = -1 := by norm_num [LGFBURST_MAX]
    simp only [get_params_from_u_params, get_lgfburst_from_u_lgfburst]
    constructor <;> linarith [h1.1, h1.2]
  · have a : DLGAGE_MIN = 1 := by norm_num [DLGAGE_MIN]
    have b : LGAGE_MAX = 9 := by norm_num [LGAGE_MAX]
    have h31 := h3.1
    have h32 := h3.2
    simp only [get_params_from_u_params, get_tburst_params_from_tburst_u_params, get_lgyr_max_from_lgyr_peak, ← hpdef]
    constructor <;> linarith

/-- C27: nothing inside the bounds is unreachable. -/
theorem C27_burst_onto (p : BurstParams) (hp : BurstInBounds p) : ∃ u, get_params_from_u_params u = p := by
  obtain ⟨⟨a1, a2⟩, ⟨b1, b2⟩, c1, c2⟩ := hp
  have h1 := C07_sigmoid_onto LGFB_X0 LGFB_K LGFBURST_MIN LGFBURST_MAX p.lgfburst (by norm_num [LGFB_K])
    (by norm_num [LGFBURST_MIN]; linarith) (by norm_num [LGFBURST_MAX]; linarith)
  obtain ⟨x, hx⟩ := h1
  obtain ⟨y, hy⟩ := C07_sigmoid_onto (0.5 * ((LGAGE_MAX - DLGAGE_MIN) + LGYR_PEAK_MIN)) LGAGE_K LGYR_PEAK_MIN
    (LGAGE_MAX - DLGAGE_MIN) p.lgyr_peak (by norm_num [LGAGE_K]) (by norm_num [LGYR_PEAK_MIN]; linarith)
    (by norm_num [LGAGE_MAX, DLGAGE_MIN]; linarith)
  obtain ⟨z, hz⟩ := C07_sigmoid_onto (0.5 * (LGAGE_MAX + (p.lgyr_peak + DLGAGE_MIN))) LGAGE_K (p.lgyr_peak + DLGAGE_MIN)
    LGAGE_MAX p.lgyr_max (by norm_num [LGAGE_K]) (by norm_num [DLGAGE_MIN]; linarith) (by norm_num [LGAGE_MAX]; linarith)
  refine ⟨⟨x, y, z⟩, ?_⟩
  have hy' : get_lgyr_peak_from_u_lgyr_peak y = p.lgyr_peak := hy
  ext
  · exact hx
  · exact hy
  · simp only [get_params_from_u_params, get_tburst_params_from_tburst_u_params, hy']
    exact hz

/-- case: a burst of 1% of the mass, peaking at 10^6 yr, over by 10^7.5 yr -/
example : ∃ u, get_params_from_u_params u = ⟨-2, 6, 7.5⟩ := C27_burst_onto ⟨-2, 6, 7.5⟩ (by norm_num [BurstInBounds])

/-- C27: the shipped default burst is in bounds. -/
theorem C27_default_in_bounds : BurstInBounds DEFAULT_BURST_PARAMS := by
  norm_num [BurstInBounds, DEFAULT_BURST_PARAMS]

/-! ## C28 -/

/-- C28: unbounded → bounded → unbounded is the identity on all of ℝ³. -/
theorem C28_u_roundtrip (u : BurstUParams) : get_u_params_from_params (get_params_from_u_params u) = u := by
  have hb := C27_burst_bounds u
  obtain ⟨_, ⟨b1, b2⟩, c1, c2⟩ := hb
  ext
  · exact C08_inverse_sigmoid_sigmoid _ _ _ _ _ (by norm_num [LGFB_K]) (by norm_num [LGFBURST_MIN, LGFBURST_MAX])
  · exact C08_inverse_sigmoid_sigmoid _ _ _ _ _ (by norm_num [LGAGE_K])
      (by norm_num [LGYR_PEAK_MIN, LGAGE_MAX, DLGAGE_MIN, LGYR_PEAK_MAX])
  · refine C08_inverse_sigmoid_sigmoid _ _ _ _ _ (by norm_num [LGAGE_K]) ?_
    have : (get_params_from_u_params u).lgyr_peak + DLGAGE_MIN < LGAGE_MAX := by
      norm_num [LGAGE_MAX, DLGAGE_MIN]; linarith
    exact this.ne

/-- C28: bounded → unbounded → bounded is the identity on every in-bounds triple. -/
theorem C28_roundtrip (p : BurstParams) (hp : BurstInBounds p) :
    get_params_from_u_params (get_u_params_from_params p) = p := by
  obtain ⟨u, rfl⟩ := C27_burst_onto p hp
  rw [C28_u_roundtrip]

/-- case: the same burst -/
example : get_params_from_u_params (get_u_params_from_params ⟨-2, 6, 7.5⟩) = ⟨-2, 6, 7.5⟩ :=
  C28_roundtrip ⟨-2, 6, 7.5⟩ (by norm_num [BurstInBounds])

/-- C28: in particular the shipped unbounded defaults reproduce the shipped defaults. -/
theorem C28_default : get_params_from_u_params DEFAULT_BURST_U_PARAMS = DEFAULT_BURST_PARAMS :=
  C28_roundtrip _ C27_default_in_bounds

/-- C28: the transformation explicitly: a logistic curve of slope 0.1 between the bounds, centred at `-2` for the mass
    fraction and in the middle of the bounds for the two times; and its inverse. -/
theorem C28_explicit (u : BurstUParams) (p : BurstParams) :
    let logistic : ℝ → ℝ := fun x => 1 / (1 + Real.exp (-x))
    let b := get_params_from_u_params u
    let v := get_u_params_from_params p
    (b.lgfburst = -8 + 7 * logistic (0.1 * (u.u_lgfburst + 2)) ∧
      b.lgyr_peak = 5 + 3 * logistic (0.1 * (u.u_lgyr_peak - 6.5)) ∧
      b.lgyr_max = b.lgyr_peak + 1 + (8 - b.lgyr_peak) * logistic (0.1 * (u.u_lgyr_max - (b.lgyr_peak + 10) / 2))) ∧
    (BurstInBounds p →
      v.u_lgfburst = -2 + 10 * Real.log ((p.lgfburst + 8) / (-1 - p.lgfburst)) ∧
      v.u_lgyr_peak = 6.5 + 10 * Real.log ((p.lgyr_peak - 5) / (8 - p.lgyr_peak)) ∧
      v.u_lgyr_max = (p.lgyr_peak + 10) / 2 + 10 * Real.log ((p.lgyr_max - (p.lgyr_peak + 1)) / (9 - p.lgyr_max))) := by
  have c1 : LGFBURST_MIN = -8 := by norm_num [LGFBURST_MIN]
  have c2 : LGFBURST_MAX = -1 := by norm_num [LGFBURST_MAX]
  have c3 : LGAGE_MAX = 9 := by norm_num [LGAGE_MAX]
  have c4 : DLGAGE_MIN = 1 := by norm_num [DLGAGE_MIN]
  have c5 : LGYR_PEAK_MIN = 5 := by norm_num [LGYR_PEAK_MIN]
  have c6 : LGAGE_K = 1 / 10 := by norm_num [LGAGE_K]
  have c7 : LGFB_K = 1 / 10 := by norm_num [LGFB_K]
  have key : ∀ x y d : ℝ, 0 < x → 0 < y → d = x + y → Real.log (d / x - 1) / (1 / 10) = - (10 * Real.log (x / y)) := by
    intro x y d hx hy hd
    rw [hd, show (x + y) / x - 1 = (x / y)⁻¹ by field_simp; ring, Real.log_inv]
    ring
  dsimp only
  refine ⟨⟨?_, ?_, ?_⟩, fun hp => ?_⟩
  · simp only [get_params_from_u_params, get_lgfburst_from_u_lgfburst, Utils.sigmoid, Jnp.sigmoid, LGFB_X0, c7, c1, c2]
    rw [show -(1 / 10 * (u.u_lgfburst - -2)) = -(0.1 * (u.u_lgfburst + 2)) by ring]
    ring
  · simp only [get_params_from_u_params, get_tburst_params_from_tburst_u_params, get_lgyr_peak_from_u_lgyr_peak,
      Utils.sigmoid, Jnp.sigmoid, c3, c4, c5, c6]
    rw [show -(1 / 10 * (u.u_lgyr_peak - 0.5 * (9 - 1 + 5))) = -(0.1 * (u.u_lgyr_peak - 6.5)) by ring]
    ring
  · simp only [get_params_from_u_params, get_tburst_params_from_tburst_u_params, get_lgyr_max_from_lgyr_peak]
    generalize get_lgyr_peak_from_u_lgyr_peak u.u_lgyr_peak = q
    simp only [Utils.sigmoid, Jnp.sigmoid, c3, c4, c6]
    rw [show -(1 / 10 * (u.u_lgyr_max - 0.5 * (9 + (q + 1)))) = -(0.1 * (u.u_lgyr_max - (q + 10) / 2)) by ring]
    ring
  · obtain ⟨⟨a1, a2⟩, ⟨b1, b2⟩, d1, d2⟩ := hp
    refine ⟨?_, ?_, ?_⟩
    · simp only [get_u_params_from_params, get_u_lgfburst_from_lgfburst, inverse_sigmoid, LGFB_X0, c7, c1, c2]
      rw [key (p.lgfburst - -8) (-1 - p.lgfburst) _ (by linarith) (by linarith) (by ring)]
      ring_nf
    · simp only [get_u_params_from_params, get_tburst_u_params_from_tburst_params, get_u_lgyr_peak_from_lgyr_peak,
        inverse_sigmoid, LGYR_PEAK_MAX, c3, c4, c5, c6]
      rw [key (p.lgyr_peak - 5) (8 - p.lgyr_peak) _ (by linarith) (by linarith) (by ring)]
      ring
    · simp only [get_u_params_from_params, get_tburst_u_params_from_tburst_params, get_u_lgyr_max_from_lgyr_peak,
        inverse_sigmoid, c3, c4, c6]
      rw [key (p.lgyr_max - (p.lgyr_peak + 1)) (9 - p.lgyr_max) _ (by linarith) (by linarith) (by ring)]
      ring

/-- case: the shipped default burst, whose fraction 10^-3 has the unbounded value -2 + 10 log(5/2) -/
example : DEFAULT_BURST_U_PARAMS.u_lgfburst = -2 + 10 * Real.log ((-3 + 8) / (-1 - -3)) := by
  have := ((C28_explicit ⟨0, 0, 0⟩ DEFAULT_BURST_PARAMS).2 C27_default_in_bounds).1
  rw [DEFAULT_BURST_U_PARAMS, this]
  norm_num [DEFAULT_BURST_PARAMS]

/-! ## C29 -/

/-- The open interval of log-ages where a burst forms stars: symmetric about the peak, ending at `lgyr_max`. -/
def BurstSupport (peak mx : ℝ) : Set ℝ := Set.Ioo (2 * peak - mx) mx

theorem tw_burst_pos {x peak mx : ℝ} (h : peak < mx) (hx : x ∈ BurstSupport peak mx) :
    0 < triweight_gaussian x (0.5 * ((peak - (mx - peak)) + mx)) ((mx - (peak - (mx - peak))) / 6) := by
  have e1 : 0.5 * ((peak - (mx - peak)) + mx) = peak := by norm_num; ring
  have e2 : (mx - (peak - (mx - peak))) / 6 = (mx - peak) / 3 := by ring
  obtain ⟨h1, h2⟩ := hx
  have hd : 0 < mx - peak := by linarith
  rw [e1, e2, (C02_triweight_density peak ((mx - peak) / 3) (by linarith)).2.2.2 x (by rw [abs_le]; constructor <;> linarith)]
  have : (x - peak) ^ 2 / (9 * ((mx - peak) / 3) ^ 2) < 1 := by
    rw [div_lt_one (by positivity)]
    nlinarith
  have : 0 < 1 - (x - peak) ^ 2 / (9 * ((mx - peak) / 3) ^ 2) := by linarith
  positivity

theorem tw_burst_zero {x peak mx : ℝ} (h : peak < mx) (hx : x ∉ BurstSupport peak mx) :
    triweight_gaussian x (0.5 * ((peak - (mx - peak)) + mx)) ((mx - (peak - (mx - peak))) / 6) = 0 := by
  have e1 : 0.5 * ((peak - (mx - peak)) + mx) = peak := by norm_num; ring
  have e2 : (mx - (peak - (mx - peak))) / 6 = (mx - peak) / 3 := by ring
  have hd : 0 < mx - peak := by linarith
  rw [e1, e2]
  have hx' : x ≤ 2 * peak - mx ∨ mx ≤ x := by
    by_contra hc
    push Not at hc
    exact hx ⟨hc.1, hc.2⟩
  have habs : mx - peak ≤ |x - peak| := by
    rcases hx' with h1 | h1
    · rw [le_abs]; right; linarith
    · rw [le_abs]; left; linarith
  rcases habs.lt_or_eq with h1 | h1
  · exact (C02_triweight_density peak ((mx - peak) / 3) (by linarith)).2.1 x (by linarith)
  · rw [(C02_triweight_density peak ((mx - peak) / 3) (by linarith)).2.2.2 x (by linarith)]
    have : (x - peak) ^ 2 / (9 * ((mx - peak) / 3) ^ 2) = 1 := by
      rw [← sq_abs, ← h1]; field_simp; norm_num
    rw [this]; ring

open Classical in
/-- C29: burst weights are non-negative, vanish off the support, are positive on it, total 1 when some grid age is in
the support and 0 otherwise (never 0/0: the divisor is 1 in that case). -/
theorem C29_pureburst_weights (lgyr : Fin n → ℝ) (peak mx : ℝ) (h : peak < mx) :
    (∀ i, 0 ≤ pureburst_age_weights_from_params lgyr peak mx i) ∧
    (∀ i, lgyr i ∉ BurstSupport peak mx → pureburst_age_weights_from_params lgyr peak mx i = 0) ∧
    (∀ i, lgyr i ∈ BurstSupport peak mx → 0 < pureburst_age_weights_from_params lgyr peak mx i) ∧
    ∑ i, pureburst_age_weights_from_params lgyr peak mx i = if ∃ i, lgyr i ∈ BurstSupport peak mx then 1 else 0 := by
  set g : Fin n → ℝ := fun i => triweight_gaussian (lgyr i) (0.5 * ((peak - (mx - peak)) + mx)) ((mx - (peak - (mx - peak))) / 6)
    with hg
  have hpos : ∀ i, lgyr i ∈ BurstSupport peak mx → 0 < g i := fun i hi => tw_burst_pos h hi
  have hzero : ∀ i, lgyr i ∉ BurstSupport peak mx → g i = 0 := fun i hi => tw_burst_zero h hi
  have hnn : ∀ i, 0 ≤ g i := fun i => by
    by_cases hi : lgyr i ∈ BurstSupport peak mx
    · exact (hpos i hi).le
    · exact (hzero i hi).ge
  set s : ℝ := if sum g ≤ 0 then 1 else sum g with hs
  have hsp : 0 < s := by
    rw [hs]; split_ifs with h1
    · norm_num
    · exact not_le.mp h1
  have hw : ∀ i, pureburst_age_weights_from_params lgyr peak mx i = g i / s := fun i => rfl
  refine ⟨fun i => ?_, fun i hi => ?_, fun i hi => ?_, ?_⟩
  · rw [hw]; exact div_nonneg (hnn i) hsp.le
  · rw [hw, hzero i hi, zero_div]
  · rw [hw]; exact div_pos (hpos i hi) hsp
  · simp only [hw, ← Finset.sum_div]
    split_ifs with hc
    · obtain ⟨i, hi⟩ := hc
      have : 0 < sum g := by
        unfold Jnp.sum
        exact Finset.sum_pos' (fun j _ => hnn j) ⟨i, Finset.mem_univ _, hpos i hi⟩
      have : s = sum g := by rw [hs, if_neg (not_le.mpr this)]
      rw [div_eq_one_iff_eq hsp.ne', this]; rfl
    · push Not at hc
      rw [Finset.sum_eq_zero (fun i _ => hzero i (hc i)), zero_div]

/-- case: a grid with two ages inside the burst and one outside -/
example : ∑ i, pureburst_age_weights_from_params ![6, 6.5, 9] 5.5 7 i = 1 := by
  rw [(C29_pureburst_weights ![6, 6.5, 9] 5.5 7 (by norm_num)).2.2.2, if_pos ⟨0, by norm_num [BurstSupport]⟩]

/-- C29: the weights decrease with distance from the peak: an age farther from the peak never gets more weight. -/
theorem C29_pureburst_peaked (lgyr : Fin n → ℝ) (peak mx : ℝ) (h : peak < mx) (i j : Fin n)
    (hij : |lgyr i - peak| ≤ |lgyr j - peak|) :
    pureburst_age_weights_from_params lgyr peak mx j ≤ pureburst_age_weights_from_params lgyr peak mx i := by
  by_cases hj : lgyr j ∈ BurstSupport peak mx
  · have e1 : 0.5 * ((peak - (mx - peak)) + mx) = peak := by norm_num; ring
    have e2 : (mx - (peak - (mx - peak))) / 6 = (mx - peak) / 3 := by ring
    have hd : 0 < mx - peak := by linarith
    have hj' : |lgyr j - peak| ≤ mx - peak := by
      rw [abs_le]; exact ⟨by linarith [hj.1], by linarith [hj.2]⟩
    have key : triweight_gaussian (lgyr j) peak ((mx - peak) / 3) ≤ triweight_gaussian (lgyr i) peak ((mx - peak) / 3) := by
      rw [(C02_triweight_density peak ((mx - peak) / 3) (by linarith)).2.2.2 _ (by linarith),
        (C02_triweight_density peak ((mx - peak) / 3) (by linarith)).2.2.2 _ (by linarith)]
      have hsq : (lgyr i - peak) ^ 2 ≤ (lgyr j - peak) ^ 2 := sq_le_sq.mpr hij
      have h1 : (lgyr j - peak) ^ 2 / (9 * ((mx - peak) / 3) ^ 2) ≤ 1 := by
        rw [div_le_one (by positivity), ← sq_abs]
        nlinarith [abs_nonneg (lgyr j - peak)]
      have h2 : (lgyr i - peak) ^ 2 / (9 * ((mx - peak) / 3) ^ 2) ≤ (lgyr j - peak) ^ 2 / (9 * ((mx - peak) / 3) ^ 2) := by
        gcongr
      gcongr
    have hgen : ∀ s : ℝ, 0 < s → triweight_gaussian (lgyr j) (0.5 * ((peak - (mx - peak)) + mx)) ((mx - (peak - (mx - peak))) / 6) / s
        ≤ triweight_gaussian (lgyr i) (0.5 * ((peak - (mx - peak)) + mx)) ((mx - (peak - (mx - peak))) / 6) / s := by
      intro s hs
      rw [e1, e2]
      gcongr
    refine hgen _ ?_
    split_ifs with h1
    · norm_num
    · exact not_le.mp h1
  · rw [(C29_pureburst_weights lgyr peak mx h).2.1 j hj]
    exact (C29_pureburst_weights lgyr peak mx h).1 i

/-- case: 6 is nearer to the peak 5.5 than 6.5 -/
example : pureburst_age_weights_from_params ![6, 6.5, 9] 5.5 7 1 ≤ pureburst_age_weights_from_params ![6, 6.5, 9] 5.5 7 0 :=
  C29_pureburst_peaked ![6, 6.5, 9] 5.5 7 (by norm_num) 0 1 (by simp; norm_num [abs_of_pos])

/-- Witness: on the grid 6, 6.5, 9 (log years) the default burst (5.5, 7) is supported on the first two ages only. -/
example : (∃ i, (![6, 6.5, 9] : Fin 3 → ℝ) i ∈ BurstSupport 5.5 7) ∧ ¬ ((![6, 6.5, 9] : Fin 3 → ℝ) 2 ∈ BurstSupport 5.5 7) :=
  ⟨⟨0, by norm_num [BurstSupport]⟩, by simp [BurstSupport]; norm_num⟩

/-! ## C30 -/

open Classical in
/-- C30, general form: weights are non-negative, scaled by exactly `1 - fb` outside the burst support, and total
`1 - fb` plus `fb` if the grid meets the support. -/
theorem C30_bursty_weights (p : BurstParams) (hf : p.lgfburst ≤ 0) (hp : p.lgyr_peak < p.lgyr_max)
    (smooth lg_age_gyr : Fin n → ℝ) (hs : IsProbVector smooth) :
    let fb := (10:ℝ) ^ p.lgfburst
    (∀ i, 0 ≤ calc_bursty_age_weights p smooth lg_age_gyr i) ∧
    (∀ i, lg_age_gyr i + 9 ∉ BurstSupport p.lgyr_peak p.lgyr_max →
      calc_bursty_age_weights p smooth lg_age_gyr i = (1 - fb) * smooth i) ∧
    ∑ i, calc_bursty_age_weights p smooth lg_age_gyr i =
      1 - fb * (1 - if ∃ i, lg_age_gyr i + 9 ∈ BurstSupport p.lgyr_peak p.lgyr_max then 1 else 0) := by
  intro fb
  have e9 : (9.0:ℝ) = 9 := by norm_num
  have hw : ∀ i, calc_bursty_age_weights p smooth lg_age_gyr i =
      fb * pureburst_age_weights_from_params (fun i => lg_age_gyr i + 9) p.lgyr_peak p.lgyr_max i + (1 - fb) * smooth i := by
    intro i
    simp only [calc_bursty_age_weights, e9]
    rfl
  have hB := C29_pureburst_weights (fun i => lg_age_gyr i + 9) p.lgyr_peak p.lgyr_max hp
  have hfb0 : 0 < fb := Real.rpow_pos_of_pos (by norm_num) _
  have hfb1 : fb ≤ 1 := Real.rpow_le_one_of_one_le_of_nonpos (by norm_num) hf
  refine ⟨fun i => ?_, fun i hi => ?_, ?_⟩
  · rw [hw]
    exact add_nonneg (mul_nonneg hfb0.le (hB.1 i)) (mul_nonneg (by linarith) (hs.1 i))
  · rw [hw, hB.2.1 i hi, mul_zero, zero_add]
  · simp only [hw, Finset.sum_add_distrib, ← Finset.mul_sum, hB.2.2.2, hs.2]
    ring

/-- case: the default burst on three ages -/
example := C30_bursty_weights DEFAULT_BURST_PARAMS (by norm_num [DEFAULT_BURST_PARAMS])
  (by norm_num [DEFAULT_BURST_PARAMS]) ![0.2, 0.3, 0.5] ![-3.5, -2, -0.5] (Case.prob3 (by vec) (by vec) (by vec) (by vec))

/-- C30: an age grid (log Gyr) that starts at or below 1 Myr, ends at or above 10 Myr and has no gap of 2 dex or more
meets the support of every in-bounds burst, so the bursty weights are a probability vector for every in-bounds burst. -/
theorem C30_bursty_prob_partial (p : BurstParams) (hp : BurstInBounds p) (smooth lg_age_gyr : Fin (n + 1) → ℝ)
    (hs : IsProbVector smooth) (h0 : lg_age_gyr 0 ≤ -3) (h1 : -2 ≤ lg_age_gyr (Fin.last n))
    (hgap : ∀ i : Fin n, lg_age_gyr i.succ - lg_age_gyr i.castSucc < 2) :
    IsProbVector (calc_bursty_age_weights p smooth lg_age_gyr) := by
  classical
  obtain ⟨⟨a1, a2⟩, ⟨b1, b2⟩, c1, c2⟩ := hp
  have hC := C30_bursty_weights p (by linarith) (by linarith) smooth lg_age_gyr hs
  have hmeet : ∃ i, lg_age_gyr i + 9 ∈ BurstSupport p.lgyr_peak p.lgyr_max := by
    suffices ∃ i, p.lgyr_peak - 1 < lg_age_gyr i + 9 ∧ lg_age_gyr i + 9 < p.lgyr_peak + 1 by
      obtain ⟨i, h2, h3⟩ := this
      exact ⟨i, by simp only [BurstSupport, Set.mem_Ioo]; constructor <;> linarith⟩
    by_contra hc
    push Not at hc
    have hlow : ∀ i : Fin (n + 1), lg_age_gyr i + 9 ≤ p.lgyr_peak - 1 := by
      intro i
      induction i using Fin.induction with
      | zero =>
        by_contra h
        have := hc 0 (not_le.mp h)
        linarith
      | succ i ih =>
        by_contra h
        have := hc i.succ (not_le.mp h)
        linarith [hgap i]
    linarith [hlow (Fin.last n)]
  refine ⟨hC.1, ?_⟩
  rw [hC.2.2, if_pos hmeet]; ring

/-- case: the default burst on three ages -/
example : IsProbVector (calc_bursty_age_weights DEFAULT_BURST_PARAMS ![0.2, 0.3, 0.5] ![-3.5, -2, -0.5]) :=
  C30_bursty_prob_partial (n := 2) DEFAULT_BURST_PARAMS C27_default_in_bounds ![0.2, 0.3, 0.5] ![-3.5, -2, -0.5]
    (Case.prob3 (by vec) (by vec) (by vec) (by vec)) (by vec) (by vec) (by intro i; fin_cases i <;> simp <;> norm_num)

/-- C30 for unbounded parameters: the same conclusion for every real triple. -/
theorem C30_bursty_prob_u_partial (u : BurstUParams) (smooth lg_age_gyr : Fin (n + 1) → ℝ)
    (hs : IsProbVector smooth) (h0 : lg_age_gyr 0 ≤ -3) (h1 : -2 ≤ lg_age_gyr (Fin.last n))
    (hgap : ∀ i : Fin n, lg_age_gyr i.succ - lg_age_gyr i.castSucc < 2) :
    IsProbVector (calc_bursty_age_weights_from_u_params u smooth lg_age_gyr) :=
  C30_bursty_prob_partial _ (C27_burst_bounds u) smooth lg_age_gyr hs h0 h1 hgap

/-- case: arbitrary unbounded parameters on three ages -/
example : IsProbVector (calc_bursty_age_weights_from_u_params ⟨1, -40, 12⟩ ![0.2, 0.3, 0.5] ![-3.5, -2, -0.5]) :=
  C30_bursty_prob_u_partial (n := 2) ⟨1, -40, 12⟩ ![0.2, 0.3, 0.5] ![-3.5, -2, -0.5]
    (Case.prob3 (by vec) (by vec) (by vec) (by vec)) (by vec) (by vec) (by intro i; fin_cases i <;> simp <;> norm_num)

example : ∃ (smooth lg_age_gyr : Fin 3 → ℝ), IsProbVector smooth ∧ lg_age_gyr 0 ≤ -3 ∧ -2 ≤ lg_age_gyr (Fin.last 2) ∧
    ∀ i : Fin 2, lg_age_gyr i.succ - lg_age_gyr i.castSucc < 2 := by
  refine ⟨![0.2, 0.3, 0.5], ![-3.5, -2, -0.5], ⟨?_, ?_⟩, ?_, ?_, ?_⟩
  · intro i; fin_cases i <;> norm_num
  · norm_num [Fin.sum_univ_succ]
  · norm_num
  · norm_num [Fin.last]
  · intro i; fin_cases i <;> simp <;> norm_num

/-- C30 is false without a condition on the grid: for every in-bounds burst and every grid that misses its support the
weights total `1 - 10^lgfburst`, which is less than 1 — mass is lost silently. -/
theorem C30_mass_lost (p : BurstParams) (hp : BurstInBounds p) (smooth lg_age_gyr : Fin n → ℝ)
    (hs : IsProbVector smooth) (hmiss : ∀ i, lg_age_gyr i + 9 ∉ BurstSupport p.lgyr_peak p.lgyr_max) :
    ∑ i, calc_bursty_age_weights p smooth lg_age_gyr i = 1 - (10:ℝ) ^ p.lgfburst ∧
    ∑ i, calc_bursty_age_weights p smooth lg_age_gyr i < 1 := by
  classical
  obtain ⟨⟨a1, a2⟩, ⟨b1, b2⟩, c1, c2⟩ := hp
  have hC := C30_bursty_weights p (by linarith) (by linarith) smooth lg_age_gyr hs
  have hE : ¬ ∃ i, lg_age_gyr i + 9 ∈ BurstSupport p.lgyr_peak p.lgyr_max := by
    push Not; exact hmiss
  have : ∑ i, calc_bursty_age_weights p smooth lg_age_gyr i = 1 - (10:ℝ) ^ p.lgfburst := by
    rw [hC.2.2, if_neg hE]; ring
  refine ⟨this, ?_⟩
  rw [this]
  have : (0:ℝ) < (10:ℝ) ^ p.lgfburst := Real.rpow_pos_of_pos (by norm_num) _
  linarith

/-- Witness for `C30_mass_lost`: the default burst and a grid of ages of 0.1, 1 and 10 Gyr. -/
theorem C30_mass_lost_witness : ∃ (smooth lg_age_gyr : Fin 3 → ℝ), IsProbVector smooth ∧ StrictMono lg_age_gyr ∧
    BurstInBounds DEFAULT_BURST_PARAMS ∧
    ∑ i, calc_bursty_age_weights DEFAULT_BURST_PARAMS smooth lg_age_gyr i = 0.999 := by
  have hs : IsProbVector (![0.2, 0.3, 0.5] : Fin 3 → ℝ) := by
    constructor
    · intro i; fin_cases i <;> norm_num
    · norm_num [Fin.sum_univ_succ]
  refine ⟨![0.2, 0.3, 0.5], ![-1, 0, 1], hs, ?_, C27_default_in_bounds, ?_⟩
  · intro i j hij
    fin_cases i <;> fin_cases j <;> simp at hij ⊢
  · rw [(C30_mass_lost _ C27_default_in_bounds _ _ hs ?_).1]
    · have : DEFAULT_BURST_PARAMS.lgfburst = ((-3 : ℤ) : ℝ) := by norm_num [DEFAULT_BURST_PARAMS]
      rw [this, Real.rpow_intCast]; norm_num
    · intro i; fin_cases i <;> simp [BurstSupport, DEFAULT_BURST_PARAMS] <;> norm_num

/-! ## C31 -/

/-- C31: the public kernel (ages in log Gyr) equals the legacy kernel at the same ages in log yr. -/
theorem C31_public_eq_legacy (p : BurstParams) (smooth lg_age_gyr : Fin n → ℝ) :
    calc_bursty_age_weights p smooth lg_age_gyr =
      compute_bursty_age_weights_from_params (fun i => lg_age_gyr i + 9) smooth p := by
  have e9 : (9.0:ℝ) = 9 := by norm_num
  simp only [calc_bursty_age_weights, compute_bursty_age_weights_from_params, e9]

/-- C31: the unbounded-parameter kernels are the bounded ones after the transformation, for both families. -/
theorem C31_u_eq (u : BurstUParams) (smooth lg_age_gyr lgyr : Fin n → ℝ) :
    calc_bursty_age_weights_from_u_params u smooth lg_age_gyr =
      calc_bursty_age_weights (get_params_from_u_params u) smooth lg_age_gyr ∧
    compute_bursty_age_weights_from_u_params lgyr smooth u =
      compute_bursty_age_weights_from_params lgyr smooth (get_params_from_u_params u) ∧
    calc_bursty_age_weights_from_u_params u smooth lg_age_gyr =
      compute_bursty_age_weights_from_u_params (fun i => lg_age_gyr i + 9) smooth u ∧
    pureburst_age_weights_from_u_params lgyr u.u_lgyr_peak u.u_lgyr_max =
      pureburst_age_weights_from_params lgyr (get_params_from_u_params u).lgyr_peak (get_params_from_u_params u).lgyr_max :=
  ⟨rfl, rfl, C31_public_eq_legacy _ _ _, rfl⟩

/-- C31: with a negligible burst fraction the smooth weights are recovered in the limit: the kernel is affine in the burst fraction. -/
theorem C31_affine (p : BurstParams) (smooth lg_age_gyr : Fin n → ℝ) (i : Fin n) :
    calc_bursty_age_weights p smooth lg_age_gyr i - smooth i = (10:ℝ) ^ p.lgfburst *
      (pureburst_age_weights_from_params (fun i => lg_age_gyr i + 9) p.lgyr_peak p.lgyr_max i - smooth i) := by
  have e9 : (9.0:ℝ) = 9 := by norm_num
  simp only [calc_bursty_age_weights, e9, exp10]
  ring

end Dsps.Props
