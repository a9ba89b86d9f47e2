import Verif.Props.RoundBurstBits

/-! C138: burst parameters in double precision (saturation, round trip); and machine computations meeting the hypotheses of C137 and C138. -/
namespace Dsps.Props
open Jnp Fl Spec Dsps.Lemmas

variable {P A : Arith} {v ε : ℝ} {n : ℕ}

lemma burst_consts : Diffburst.LGFBURST_MIN = -8 ∧ Diffburst.LGFBURST_MAX = -1 ∧ Diffburst.LGYR_PEAK_MIN = 5 ∧ Diffburst.LGYR_PEAK_MAX = 8 ∧
    Diffburst.LGAGE_MAX = 9 ∧ Diffburst.DLGAGE_MIN = 1 ∧ Diffburst.LGAGE_K = 0.1 ∧ Diffburst.LGFB_K = 0.1 ∧ Diffburst.LGFB_X0 = -2 := by
  unfold Diffburst.LGFBURST_MIN Diffburst.LGFBURST_MAX Diffburst.LGYR_PEAK_MIN Diffburst.LGYR_PEAK_MAX Diffburst.LGAGE_MAX Diffburst.DLGAGE_MIN
    Diffburst.LGAGE_K Diffburst.LGFB_K Diffburst.LGFB_X0
  norm_num

/-- C138: **saturation of the burst parameters**: in double precision every `u_lgyr_peak ≥ 400` gives the peak `10^8` yr, and then the end of the burst is
`10^9` yr **whatever `u_lgyr_max` is**: the parameters no longer determine the unbounded ones. -/
theorem C138_saturation {v : ℝ} (hv0 : 0 ≤ v) (hv : v ≤ 2 ^ (-50:ℤ)) {u : Diffburst.BurstUParams} {q : Diffburst.BurstParams} (hu : 400 ≤ u.u_lgyr_peak)
    (hq : q ∈ Rounded.get_params_from_u_params f64 f64 (Rounded.logistic_xla f64 v) u) : q.lgyr_peak = 8 ∧ q.lgyr_max = 9 := by
  obtain ⟨c1, c2, c3, c4, c5, c6, c7, c8, c9⟩ := burst_consts
  obtain ⟨f, -, a, ⟨k, hk, ha⟩, b, ⟨lo, rfl, s, -, x0, -, k', -, hb⟩, rfl⟩ := hq
  have n8 := small_exact (p := 53) (by norm_num) 8 (by norm_num)
  have n3 := small_exact (p := 53) (by norm_num) 3 (by norm_num)
  have n9 := small_exact (p := 53) (by norm_num) 9 (by norm_num)
  push_cast at n8 n3 n9
  rw [lit64 hk, c3, c4, c7] at ha
  have ht : 38 ≤ nearest 53 0.1 * (u.u_lgyr_peak - 6.5) := by
    have h1 := tenth_bounds.1
    have h2 : (393.5:ℝ) ≤ u.u_lgyr_peak - 6.5 := by norm_num; linarith
    have := mul_le_mul h1 h2 (by norm_num) (le_trans (by norm_num) h1)
    norm_num at this ⊢; linarith
  have ha' := C136_saturation hv0 hv ht ha
  rw [show (8:ℝ) - 5 = 3 by norm_num, n3, show (5:ℝ) + 3 = 8 by norm_num, n8] at ha'
  refine ⟨ha', ?_⟩
  have e : nearest 53 (a + Diffburst.DLGAGE_MIN) = 9 := by rw [ha', c6, show (8:ℝ) + 1 = 9 by norm_num, n9]
  obtain ⟨hd, rfl, d, -, t, -, z, -, w, rfl, rfl⟩ := hb
  rw [e, c5, sub_self, nearest_zero, zero_mul, nearest_zero, add_zero, n9]

lemma exp_94 {t : ℝ} (h : t ≤ 9.4) : Real.exp t ≤ 13000 := by
  have e : Real.exp 9.4 ≤ 13000 := by
    have h1 := Real.exp_one_lt_d9
    have h2 : Real.exp 9.4 = Real.exp 1 ^ 9 * Real.exp 0.4 := by
      rw [← Real.exp_nat_mul, ← Real.exp_add]; norm_num
    have h3 : Real.exp 0.4 ≤ 1.5 := by
      have : Real.exp 0.4 ^ 5 = Real.exp 1 ^ 2 := by
        rw [← Real.exp_nat_mul, ← Real.exp_nat_mul]; norm_num
      refine le_of_pow_le_pow_left₀ (n := 5) (by norm_num) (by norm_num) ?_
      rw [this]
      refine (pow_le_pow_left₀ (Real.exp_pos 1).le h1.le 2).trans (by norm_num)
    rw [h2]
    refine (mul_le_mul (pow_le_pow_left₀ (Real.exp_pos 1).le h1.le 9) h3 (Real.exp_pos _).le (by norm_num)).trans (by norm_num)
  exact (Real.exp_le_exp.2 h).trans e

/-- the peak computed in double precision stays away from its upper bound -/
lemma peak_gap {v u a : ℝ} (hv0 : 0 ≤ v) (hv : v ≤ 2 ^ (-50:ℤ)) (hu : |u| ≤ 100)
    (ha : a ∈ Rounded.sigmoid f64 (Rounded.logistic v) u 6.5 (nearest 53 0.1) 5 8) : 4.99 ≤ a ∧ a ≤ 8 - 2.3e-4 := by
  have M : Machine f64 f64 v (2 ^ (-50:ℤ)) := Float64.machine ⟨float64_ieee.1, float64_ieee.2.1, hv0, hv⟩
  have e := C135_sigmoid M ha
  set k := nearest 53 0.1 with hk
  have ex : Utils.sigmoid u 6.5 k 5 8 = 5 + (8 - 5) * Jnp.sigmoid (k * (u - 6.5)) := rfl
  have ht : k * (u - 6.5) ≤ 9.4 := by
    obtain ⟨k1, k2⟩ := tenth_bounds
    rw [← hk] at k1 k2
    have h2 : u - 6.5 ≤ 93.5 := by have := (abs_le.1 hu).2; norm_num; linarith
    calc k * (u - 6.5) ≤ k * 93.5 := mul_le_mul_of_nonneg_left h2 (le_trans (by norm_num) k1)
      _ ≤ 0.1001 * 93.5 := mul_le_mul_of_nonneg_right k2 (by norm_num)
      _ ≤ 9.4 := by norm_num
  have hE := exp_94 ht
  have hs : Jnp.sigmoid (k * (u - 6.5)) ≤ 1 - 1 / 13001 := by
    have e1 : Jnp.sigmoid (k * (u - 6.5)) = 1 - 1 / (1 + Real.exp (k * (u - 6.5))) := by
      have h0 := Real.exp_pos (k * (u - 6.5))
      unfold Jnp.sigmoid
      rw [Real.exp_neg]; field_simp; ring
    rw [e1]
    have : 1 / (13001:ℝ) ≤ 1 / (1 + Real.exp (k * (u - 6.5))) := one_div_le_one_div_of_le (by positivity) (by linarith)
    linarith
  have hs0 := sigmoid_pos (k * (u - 6.5))
  rw [ex] at e
  obtain ⟨e1, e2⟩ := abs_le.1 e
  norm_num at e1 e2 hs ⊢
  constructor <;> linarith

set_option maxHeartbeats 1000000 in
/-- C138: **round trip of the burst parameters in double precision**: converting unbounded parameters of size at most 100 to burst parameters and back returns
the mass fraction and the peak to within `1e-6`, and the end of the burst to within `1e-3` (the allowed range of the end shrinks to nothing as the
peak approaches `10^8` yr). -/
theorem C138_params_roundtrip {v : ℝ} (hv0 : 0 ≤ v) (hv : v ≤ 2 ^ (-50:ℤ)) {u u' : Diffburst.BurstUParams} {q : Diffburst.BurstParams}
    (h1 : |u.u_lgfburst| ≤ 100) (h2 : |u.u_lgyr_peak| ≤ 100) (h3 : |u.u_lgyr_max| ≤ 100)
    (hq : q ∈ Rounded.get_params_from_u_params f64 f64 (Rounded.logistic v) u) (hu' : u' ∈ Rounded.get_u_params_from_params f64 f64 v q) :
    |u'.u_lgfburst - u.u_lgfburst| ≤ 1e-6 ∧ |u'.u_lgyr_peak - u.u_lgyr_peak| ≤ 1e-6 ∧ |u'.u_lgyr_max - u.u_lgyr_max| ≤ 1e-3 := by
  obtain ⟨c1, c2, c3, c4, c5, c6, c7, c8, c9⟩ := burst_consts
  obtain ⟨f, ⟨k1, hk1, hf⟩, a, ⟨k2, hk2, ha⟩, b, ⟨lo, rfl, s, rfl, x0, rfl, k3, hk3, hb⟩, rfl⟩ := hq
  obtain ⟨f', ⟨k1', hk1', hf'⟩, a', ⟨k2', hk2', ha'⟩, b', ⟨lo', rfl, s', rfl, x0', rfl, k3', hk3', hb'⟩, rfl⟩ := hu'
  rw [lit64 hk1, c1, c2, c8, c9] at hf
  rw [lit64 hk1', c1, c2, c8, c9] at hf'
  rw [lit64 hk2, c3, c4, c7] at ha
  rw [lit64 hk2', c3, c4, c7] at ha'
  rw [lit64 hk3, c5, c6, c7] at hb
  rw [lit64 hk3', c5, c6, c7] at hb'
  dsimp only at hf' ha' hb'
  refine ⟨roundtrip64 hv0 hv h1 (by norm_num [abs_of_neg]) tenth_bounds (by norm_num) (by norm_num [abs_of_neg]) hf hf',
    roundtrip64 hv0 hv h2 (by norm_num [abs_of_pos]) tenth_bounds (by norm_num) (by norm_num [abs_of_pos]) ha ha', ?_⟩
  obtain ⟨g1, g2⟩ := peak_gap hv0 hv h2 ha
  norm_num at g1 g2
  have L := near53_lt (x := a + 1) (c := 9) (by rw [abs_of_pos (by linarith)]; linarith) (show 9 * 1e-15 ≤ (1e-9:ℝ) by norm_num)
  set lo := nearest 53 (a + 1) with hlo
  norm_num at L
  have X1 := near53_lt (x := 9 + lo) (c := 18) (by rw [abs_of_pos (by linarith [L.1])]; linarith [L.2]) (show 18 * 1e-15 ≤ (1e-9:ℝ) by norm_num)
  set s := nearest 53 (9 + lo) with hs
  norm_num at X1
  have X2 := near53_lt (x := 0.5 * s) (c := 10) (by rw [abs_of_pos (by norm_num; linarith [L.1, X1.1])]; norm_num; linarith [L.2, X1.2])
    (show 10 * 1e-15 ≤ (1e-9:ℝ) by norm_num)
  set x0 := nearest 53 (0.5 * s) with hx0
  norm_num at X2
  have M : Machine f64 f64 v (2 ^ (-50:ℤ)) := Float64.machine ⟨float64_ieee.1, float64_ieee.2.1, hv0, hv⟩
  have hlt : lo < 9 := by linarith [L.2]
  have hD : 2.2e-4 ≤ 9 - lo := by norm_num; linarith [L.2]
  have hx : |x0| ≤ 11 := abs_le.2 ⟨by linarith [L.1, X1.1, X2.1], by linarith [L.2, X1.2, X2.2]⟩
  set k := nearest 53 0.1 with hk
  have hkb := tenth_bounds
  rw [← hk] at hkb
  have hk0 : 0 < k := lt_of_lt_of_le (by norm_num) hkb.1
  have ht : |k * (u.u_lgyr_max - x0)| ≤ 12 := by
    rw [abs_mul, abs_of_pos hk0]
    have h1 : |u.u_lgyr_max - x0| ≤ 111 := (abs_sub _ _).trans (by linarith)
    calc k * |u.u_lgyr_max - x0| ≤ 0.1001 * 111 := mul_le_mul hkb.2 h1 (abs_nonneg _) (by norm_num)
      _ ≤ 12 := by norm_num
  have hC := exp_12 ht
  set C := 2 + Real.exp (k * (u.u_lgyr_max - x0)) + Real.exp (-(k * (u.u_lgyr_max - x0))) with hCd
  have hC0 : 0 < C := by positivity
  have hl0 : |lo| ≤ 9 := abs_le.2 ⟨by linarith [L.1], hlt.le⟩
  have w1 : 1 + |lo| / (9 - lo) ≤ 41000 := by
    have : |lo| / (9 - lo) ≤ 9 / 2.2e-4 := div_le_div₀ (by norm_num) hl0 (by norm_num) hD
    norm_num at this; linarith
  have hwC : (1 + |lo| / (9 - lo)) * C ≤ 41000 * 162803 := mul_le_mul w1 hC hC0.le (by norm_num)
  have hsm : 1100 * (2:ℝ) ^ (-50:ℤ) * ((1 + |lo| / (9 - lo)) * C) ≤ 1 := by norm_num at hwC ⊢; linarith
  have h := (C136_roundtrip M hk0 hlt hsm hb hb').2.2
  refine h.trans ?_
  have q : 13.3 * ((1 + |lo| / (9 - lo)) * C) / k ≤ 13.3 * (41000 * 162803) / 0.0999 :=
    div_le_div₀ (by norm_num) (by norm_num at hwC ⊢; linarith) (by norm_num) hkb.1
  have : 1.01 * |x0| + 13.3 * ((1 + |lo| / (9 - lo)) * C) / k ≤ 1.01 * 11 + 13.3 * (41000 * 162803) / 0.0999 := add_le_add (by norm_num; linarith) q
  calc _ ≤ (2:ℝ) ^ (-50:ℤ) * (1.01 * 11 + 13.3 * (41000 * 162803) / 0.0999) := mul_le_mul_of_nonneg_left this (by positivity)
    _ ≤ 1e-3 := by norm_num

/-- C138: **the whole function in double precision**: for every choice of unbounded parameters for which an age lies within half the support around the
resulting peak, the weights of `calc_bursty_age_weights_from_u_params` are non-negative and sum to one as precisely as the smooth ones do. -/
theorem C138_from_u_params_float64 {v : ℝ} (hv0 : 0 ≤ v) (hv : v ≤ 2 ^ (-50:ℤ)) {d : ℕ} {u : Diffburst.BurstUParams} {w ages : Fin n → ℝ}
    (hs : ∀ q ∈ Rounded.get_params_from_u_params f64 f64 (Rounded.logistic_xla f64 v) u, Samples (fun i => ages i + 9.0) q.lgyr_peak q.lgyr_max)
    (hn : n ≤ 1000000) (hd : d ≤ n) (hw : ∀ i, 0 ≤ w i) (hw1 : ∑ i, w i ≤ 1.01) {r : Fin n → ℝ}
    (hr : r ∈ Rounded.calc_bursty_age_weights_from_u_params f64 f64 v (Rounded.logistic_xla f64 v) d u w ages) :
    (∀ i, 0 ≤ r i) ∧ |∑ i, r i - 1| ≤ 1.9e-11 * n + |∑ i, w i - 1| := by
  have H : Float64 f64 f64 v := ⟨float64_ieee.1, float64_ieee.2.1, hv0, hv⟩
  have hd' : (d:ℝ) ≤ 1000000 := by exact_mod_cast hd.trans hn
  refine ⟨C138_from_u_params (p := 53) (by norm_num) le_rfl (hv.trans (by norm_num)) ?_ hw hr, ?_⟩
  · norm_num; linarith
  obtain ⟨q, hq, hr⟩ := hr
  obtain ⟨⟨f0, f1⟩, ⟨a0, a1⟩, ⟨-, b1⟩, hab, -⟩ := C138_params_in_bounds (p := 53) (by norm_num) (hv.trans (by norm_num)) hq
  exact (C137_bursty_float64 H ⟨a0, hab, b1⟩ (hs q hq) (by linarith) (by simp_rw [abs_of_nonneg (hw _)]; exact hw1) hn hd hr).2

/-! ### machine computations exist -/

lemma triweight_nonempty (hP : ∀ x, (P.rnd x).Nonempty) (hA : ∀ x, (A.rnd x).Nonempty) (x m h : ℝ) : (Rounded.triweight_gaussian P A x m h).Nonempty :=
  ⟨_, _, (hA _).some_mem, _, (hA _).some_mem, _, (hA _).some_mem, _, (intPow_nonempty hA _ 1).choose_spec, _, (hA _).some_mem,
    _, (intPow_nonempty hA _ 2).choose_spec, _, (lit_nonempty_ hP hA _).some_mem, _, (hA _).some_mem, _, (hA _).some_mem, rfl⟩

lemma pureburst_nonempty (hP : ∀ x, (P.rnd x).Nonempty) (hA : ∀ x, (A.rnd x).Nonempty) {d : ℕ} (hd : n ≤ d) (lgyr : Fin n → ℝ) (a b : ℝ) :
    (Rounded.pureburst_age_weights_from_params P A d lgyr a b).Nonempty :=
  ⟨_, _, (hA _).some_mem, _, (hA _).some_mem, _, (hA _).some_mem, _, (hA _).some_mem, _, (hA _).some_mem, _, (hA _).some_mem,
    _, (vec_nonempty fun _ => triweight_nonempty hP hA _ _ _).some_mem, _, (sum_nonempty hA _ (by simpa using hd)).some_mem,
    (vec_nonempty fun _ => hA _).some_mem⟩

lemma bursty_nonempty (hP : ∀ x, (P.rnd x).Nonempty) (hA : ∀ x, (A.rnd x).Nonempty) (hv : 0 ≤ v) {d : ℕ} (hd : n ≤ d) (q : Diffburst.BurstParams)
    (w ages : Fin n → ℝ) : (Rounded.calc_bursty_age_weights P A v d q w ages).Nonempty :=
  ⟨_, _, (vec_nonempty fun _ => hA _).some_mem, _, (pureburst_nonempty hP hA hd _ _ _).some_mem, _, (exp10_nonempty hv _).some_mem,
    _, (vec_nonempty fun _ => hA _).some_mem, _, (hA _).some_mem, _, (vec_nonempty fun _ => hA _).some_mem, (vec_nonempty fun _ => hA _).some_mem⟩

lemma burst_params_nonempty {S : ℝ → Set ℝ} (hP : ∀ x, (P.rnd x).Nonempty) (hA : ∀ x, (A.rnd x).Nonempty) (hS : ∀ x, (S x).Nonempty)
    (u : Diffburst.BurstUParams) : (Rounded.get_params_from_u_params P A S u).Nonempty :=
  ⟨_, _, ⟨_, (lit_nonempty_ hP hA _).some_mem, (sigmoid_nonempty hA hS _ _ _ _ _).some_mem⟩,
    _, ⟨_, (lit_nonempty_ hP hA _).some_mem, (sigmoid_nonempty hA hS _ _ _ _ _).some_mem⟩,
    _, ⟨_, (hA _).some_mem, _, (hA _).some_mem, _, (hA _).some_mem, _, (lit_nonempty_ hP hA _).some_mem, (sigmoid_nonempty hA hS _ _ _ _ _).some_mem⟩, rfl⟩

lemma burst_u_params_nonempty (hP : ∀ x, (P.rnd x).Nonempty) (hA : ∀ x, (A.rnd x).Nonempty) (hv : 0 ≤ v) (q : Diffburst.BurstParams) :
    (Rounded.get_u_params_from_params P A v q).Nonempty :=
  ⟨_, _, ⟨_, (lit_nonempty_ hP hA _).some_mem, (inverse_sigmoid_nonempty hA hv _ _ _ _ _).some_mem⟩,
    _, ⟨_, (lit_nonempty_ hP hA _).some_mem, (inverse_sigmoid_nonempty hA hv _ _ _ _ _).some_mem⟩,
    _, ⟨_, (hA _).some_mem, _, (hA _).some_mem, _, (hA _).some_mem, _, (lit_nonempty_ hP hA _).some_mem,
      (inverse_sigmoid_nonempty hA hv _ _ _ _ _).some_mem⟩, rfl⟩

lemma from_u_params_nonempty {S : ℝ → Set ℝ} (hP : ∀ x, (P.rnd x).Nonempty) (hA : ∀ x, (A.rnd x).Nonempty) (hv : 0 ≤ v) (hS : ∀ x, (S x).Nonempty)
    {d : ℕ} (hd : n ≤ d) (u : Diffburst.BurstUParams) (w ages : Fin n → ℝ) : (Rounded.calc_bursty_age_weights_from_u_params P A v S d u w ages).Nonempty :=
  ⟨_, _, (burst_params_nonempty hP hA hS u).some_mem, (bursty_nonempty hP hA hv hd _ w ages).some_mem⟩

/-- case: the default burst on the ages `10^5`, `10^5.5`, `10^6` yr, in double precision -/
example : ∃ r ∈ Rounded.pureburst_age_weights_from_params f64 f64 3 ![5, 5.5, 6] 5.5 7,
    ∑ i, |r i - Diffburst.pureburst_age_weights_from_params ![5, 5.5, 6] 5.5 7 i| ≤ 1e-10 := by
  obtain ⟨r, hr⟩ := pureburst_nonempty f64_nonempty f64_nonempty (d := 3) le_rfl ![5, 5.5, 6] 5.5 7
  refine ⟨r, hr, (C137_pureburst_float64 float64_ieee ⟨by norm_num, by norm_num, by norm_num⟩ ⟨1, by norm_num⟩ (by norm_num) le_rfl hr).trans ?_⟩
  norm_num

/-- case: the same with a smooth population, ages in Gyr -/
example : ∃ r ∈ Rounded.calc_bursty_age_weights f64 f64 (2 ^ (-50:ℤ)) 3 Diffburst.DEFAULT_BURST_PARAMS (fun _ => 1 / 3) ![-4, -3.5, -3],
    ∑ i, |r i - Diffburst.calc_bursty_age_weights Diffburst.DEFAULT_BURST_PARAMS (fun _ => 1 / 3) ![-4, -3.5, -3] i| ≤ 1e-10 ∧ |∑ i, r i - 1| ≤ 1e-10 := by
  obtain ⟨r, hr⟩ := bursty_nonempty (v := 2 ^ (-50:ℤ)) f64_nonempty f64_nonempty v64_nonneg (d := 3) le_rfl Diffburst.DEFAULT_BURST_PARAMS
    (fun _ => 1 / 3) ![-4, -3.5, -3]
  have h := C137_bursty_float64 float64_ieee (by unfold BurstBox Diffburst.DEFAULT_BURST_PARAMS; norm_num)
    (by refine ⟨1, ?_⟩; unfold Diffburst.DEFAULT_BURST_PARAMS; norm_num) (by unfold Diffburst.DEFAULT_BURST_PARAMS; norm_num)
    (by norm_num [abs_of_pos]) (by norm_num) le_rfl hr
  refine ⟨r, hr, h.1.trans (by norm_num), h.2.trans ?_⟩
  norm_num

/-- case: in single precision, ages outside the burst: all weights are between zero and one -/
example : ∃ r ∈ Rounded.pureburst_age_weights_from_params f64 (binary 24 (by norm_num)) 3 ![5, 9.5, 10] 5.5 7,
    (∀ i, 0 ≤ r i ∧ r i ≤ 1) ∧ (|∑ i, r i - 1| ≤ 1e-6 ∨ ∀ i, r i = 0) := by
  obtain ⟨r, hr⟩ := pureburst_nonempty f64_nonempty (binary_nonempty 24 (by norm_num)) (d := 3) le_rfl ![5, 9.5, 10] 5.5 7
  have m : nearest 24 5.5 = 5.5 := nearest_exact 11 (-1) (by norm_num) (by norm_num)
  have h := C138_pureburst (p := 24) (by norm_num) (by show (1 / 2 : ℝ) ^ 53 ≤ _; norm_num) m (by norm_num) (by norm_num) hr
  exact ⟨r, hr, h.1, h.2.imp (fun h => h.trans (by norm_num)) id⟩

/-- case: non-negative weights from unbounded parameters far out, in single precision -/
example : ∃ r ∈ Rounded.calc_bursty_age_weights_from_u_params f64 (binary 24 (by norm_num)) (2 ^ (-20:ℤ))
    (Rounded.logistic_xla (binary 24 (by norm_num)) (2 ^ (-20:ℤ))) 2 ⟨1e9, -1e9, 3⟩ ![0.5, 0.5] ![-4, 1], ∀ i, 0 ≤ r i := by
  obtain ⟨r, hr⟩ := from_u_params_nonempty (P := f64) (A := binary 24 (by norm_num)) (v := 2 ^ (-20:ℤ)) f64_nonempty (binary_nonempty 24 (by norm_num))
    (by norm_num) (logistic_xla_nonempty (v := 2 ^ (-20:ℤ)) (binary_nonempty 24 (by norm_num)) (by norm_num)) (d := 2) le_rfl ⟨1e9, -1e9, 3⟩ ![0.5, 0.5] ![-4, 1]
  refine ⟨r, hr, C138_from_u_params (p := 24) (by norm_num) (by show (1 / 2 : ℝ) ^ 53 ≤ _; norm_num) (by norm_num) (by norm_num) ?_ hr⟩
  intro i; fin_cases i <;> norm_num

/-- case: saturation: two different unbounded parameters give the same burst -/
example : ∃ q ∈ Rounded.get_params_from_u_params f64 f64 (Rounded.logistic_xla f64 (2 ^ (-50:ℤ))) ⟨0, 500, 7⟩,
    ∃ q' ∈ Rounded.get_params_from_u_params f64 f64 (Rounded.logistic_xla f64 (2 ^ (-50:ℤ))) ⟨0, 600, -50⟩,
    q.lgyr_peak = q'.lgyr_peak ∧ q.lgyr_max = q'.lgyr_max := by
  obtain ⟨q, hq⟩ := burst_params_nonempty (P := f64) (A := f64) f64_nonempty f64_nonempty
    (logistic_xla_nonempty (v := 2 ^ (-50:ℤ)) f64_nonempty v64_nonneg) ⟨0, 500, 7⟩
  obtain ⟨q', hq'⟩ := burst_params_nonempty (P := f64) (A := f64) f64_nonempty f64_nonempty
    (logistic_xla_nonempty (v := 2 ^ (-50:ℤ)) f64_nonempty v64_nonneg) ⟨0, 600, -50⟩
  have h := C138_saturation v64_nonneg le_rfl (by norm_num) hq
  have h' := C138_saturation v64_nonneg le_rfl (by norm_num) hq'
  exact ⟨q, hq, q', hq', by rw [h.1, h'.1], by rw [h.2, h'.2]⟩

/-- case: a round trip -/
example : ∃ q ∈ Rounded.get_params_from_u_params f64 f64 (Rounded.logistic (2 ^ (-50:ℤ))) ⟨-30, 12, 70⟩,
    ∃ u' ∈ Rounded.get_u_params_from_params f64 f64 (2 ^ (-50:ℤ)) q, |u'.u_lgyr_max - 70| ≤ 1e-3 := by
  obtain ⟨q, hq⟩ := burst_params_nonempty (P := f64) (A := f64) (S := Rounded.logistic (2 ^ (-50:ℤ))) f64_nonempty f64_nonempty
    (logistic_nonempty v64_nonneg) ⟨-30, 12, 70⟩
  obtain ⟨u', hu'⟩ := burst_u_params_nonempty (v := 2 ^ (-50:ℤ)) f64_nonempty f64_nonempty v64_nonneg q
  exact ⟨q, hq, u', hu', (C138_params_roundtrip v64_nonneg le_rfl (by norm_num [abs_of_neg]) (by norm_num [abs_of_pos]) (by norm_num [abs_of_pos]) hq hu').2.2⟩

/-- case: the whole function; the ages are so fine that one of them always samples the burst -/
example : ∃ r ∈ Rounded.calc_bursty_age_weights_from_u_params f64 f64 (2 ^ (-50:ℤ)) (Rounded.logistic_xla f64 (2 ^ (-50:ℤ))) 4 ⟨-5, 0, 3⟩
    (fun _ => 0.25) (fun i : Fin 4 => -3.75 + 0.8 * (i.val : ℝ)), (∀ i, 0 ≤ r i) ∧ |∑ i, r i - 1| ≤ 1e-10 := by
  obtain ⟨r, hr⟩ := from_u_params_nonempty (P := f64) (A := f64) (v := 2 ^ (-50:ℤ)) f64_nonempty f64_nonempty v64_nonneg
    (logistic_xla_nonempty f64_nonempty v64_nonneg) (d := 4) le_rfl ⟨-5, 0, 3⟩ (fun _ => 0.25) (fun i : Fin 4 => -3.75 + 0.8 * (i.val : ℝ))
  have h := C138_from_u_params_float64 v64_nonneg le_rfl (u := ⟨-5, 0, 3⟩) (w := (fun _ => 0.25)) (ages := (fun i : Fin 4 => -3.75 + 0.8 * (i.val : ℝ))) ?_
    (by norm_num) le_rfl (fun _ => by norm_num) (by norm_num) hr
  · refine ⟨r, hr, h.1, h.2.trans ?_⟩
    norm_num
  · intro q hq
    obtain ⟨-, ⟨a0, a1⟩, -, hab, -⟩ := C138_params_in_bounds (p := 53) (by norm_num) (by norm_num) hq
    norm_num at hab
    unfold Samples
    rcases le_total q.lgyr_peak 5.65 with h | h
    · refine ⟨0, ?_⟩
      norm_num at h ⊢
      rw [abs_le]; constructor <;> linarith
    · rcases le_total q.lgyr_peak 6.45 with h' | h'
      · refine ⟨1, ?_⟩
        norm_num at h h' ⊢
        rw [abs_le]; constructor <;> linarith
      · rcases le_total q.lgyr_peak 7.25 with h'' | h''
        · refine ⟨2, ?_⟩
          norm_num at h' h'' ⊢
          rw [abs_le]; constructor <;> linarith
        · refine ⟨3, ?_⟩
          norm_num at h'' ⊢
          rw [abs_le]; constructor <;> linarith

end Dsps.Props
