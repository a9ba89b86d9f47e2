import Verif.Props.RoundInverse
import Verif.Props.RoundMzrBits

/-! C136 in numbers: the parameters of `umzr.py` in double precision; and machine computations meeting the hypotheses of C135 and C136. -/
namespace Dsps.Props
open Jnp Fl Spec Dsps.Lemmas

variable {P A : Arith} {v ε : ℝ}

lemma exp_12 {t : ℝ} (h : |t| ≤ 12) : 2 + Real.exp t + Real.exp (-t) ≤ 162803 := by
  have e : Real.exp 12 ≤ 162800 := by
    have h1 := Real.exp_one_lt_d9
    rw [show (12:ℝ) = (12:ℕ) * 1 by norm_num, Real.exp_nat_mul]
    exact (pow_le_pow_left₀ (Real.exp_pos 1).le h1.le 12).trans (by norm_num)
  obtain ⟨h1, h2⟩ := abs_le.1 h
  have a1 := Real.exp_le_exp.2 h2
  have a2 := Real.exp_le_exp.2 (show -t ≤ 12 by linarith)
  rcases le_total 0 t with h0 | h0
  · have := Real.exp_le_one_iff.2 (show -t ≤ 0 by linarith)
    linarith
  · have := Real.exp_le_one_iff.2 h0
    linarith

/-- a literal in double precision -/
lemma lit64 {x y : ℝ} (hy : y ∈ Rounded.lit f64 f64 x) : y = nearest 53 x := by
  obtain ⟨q, rfl, rfl⟩ := hy
  exact nearest_idem (by norm_num) x

lemma near53 (x : ℝ) : |nearest 53 x - x| ≤ 1e-15 * |x| :=
  (nearest_rel (by norm_num) x).trans (mul_le_mul_of_nonneg_right (by norm_num) (abs_nonneg x))

lemma near53_lt {x c d : ℝ} (h : |x| ≤ c) (hd : c * 1e-15 ≤ d) : x - d ≤ nearest 53 x ∧ nearest 53 x ≤ x + d := by
  have := near53 x
  have h2 : 1e-15 * |x| ≤ d := by nlinarith
  obtain ⟨a, b⟩ := abs_le.1 (this.trans h2)
  constructor <;> linarith

/-- the steepness in double precision -/
lemma tenth_bounds : 0.0999 ≤ nearest 53 0.1 ∧ nearest 53 0.1 ≤ 0.1001 := by rw [tenth53]; constructor <;> norm_num

set_option maxHeartbeats 1000000 in
/-- the round trip of one parameter, for machine numbers -/
lemma roundtrip64 {v u x0 k ylo yhi y r : ℝ} (hv0 : 0 ≤ v) (hv : v ≤ 2 ^ (-50:ℤ)) (hu : |u| ≤ 100) (hx : |x0| ≤ 11) (hk : 0.0999 ≤ k ∧ k ≤ 0.1001)
    (hlt : ylo < yhi) (hw : |ylo| ≤ 23 * (yhi - ylo))
    (hy : y ∈ Rounded.sigmoid f64 (Rounded.logistic v) u x0 k ylo yhi) (hr : r ∈ Rounded.inverse_sigmoid f64 v y x0 k ylo yhi) : |r - u| ≤ 1e-6 := by
  have M : Machine f64 f64 v (2 ^ (-50:ℤ)) := Float64.machine ⟨float64_ieee.1, float64_ieee.2.1, hv0, hv⟩
  have hD : 0 < yhi - ylo := sub_pos.2 hlt
  have hk0 : 0 < k := lt_of_lt_of_le (by norm_num) hk.1
  have ht : |k * (u - x0)| ≤ 12 := by
    rw [abs_mul, abs_of_pos hk0]
    have h1 : |u - x0| ≤ 111 := (abs_sub _ _).trans (by linarith)
    calc k * |u - x0| ≤ 0.1001 * 111 := mul_le_mul hk.2 h1 (abs_nonneg _) (by norm_num)
      _ ≤ 12 := by norm_num
  have hC := exp_12 ht
  set C := 2 + Real.exp (k * (u - x0)) + Real.exp (-(k * (u - x0))) with hCd
  have hC0 : 0 < C := by positivity
  have w1 : 1 + |ylo| / (yhi - ylo) ≤ 24 := by
    have : |ylo| / (yhi - ylo) ≤ 23 := by rw [div_le_iff₀ hD]; exact hw
    linarith
  have hwC : (1 + |ylo| / (yhi - ylo)) * C ≤ 24 * 162803 := mul_le_mul w1 hC hC0.le (by norm_num)
  have hsm : 1100 * (2:ℝ) ^ (-50:ℤ) * ((1 + |ylo| / (yhi - ylo)) * C) ≤ 1 := by norm_num at hwC ⊢; linarith
  have h := (C136_roundtrip M hk0 hlt hsm hy hr).2.2
  refine h.trans ?_
  have q : 13.3 * ((1 + |ylo| / (yhi - ylo)) * C) / k ≤ 13.3 * (24 * 162803) / 0.0999 := by
    refine div_le_div₀ (by norm_num) (by norm_num at hwC ⊢; linarith) (by norm_num) hk.1
  have : 1.01 * |x0| + 13.3 * ((1 + |ylo| / (yhi - ylo)) * C) / k ≤ 1.01 * 11 + 13.3 * (24 * 162803) / 0.0999 := add_le_add (by norm_num; linarith) q
  calc _ ≤ (2:ℝ) ^ (-50:ℤ) * (1.01 * 11 + 13.3 * (24 * 162803) / 0.0999) := mul_le_mul_of_nonneg_left this (by positivity)
    _ ≤ 1e-6 := by norm_num

/-- the machine numbers of a pair of bounds -/
lemma bounds64 {lo hi : ℝ} (h1 : |lo| ≤ 10.75) (h2 : |hi| ≤ 10.75) (h3 : lo + 0.5 ≤ hi) :
    nearest 53 lo < nearest 53 hi ∧ |nearest 53 lo| ≤ 23 * (nearest 53 hi - nearest 53 lo) ∧
    |nearest 53 (0.5 * nearest 53 (nearest 53 lo + nearest 53 hi))| ≤ 11 := by
  have a := near53_lt h1 (show 10.75 * 1e-15 ≤ (1e-9:ℝ) by norm_num)
  have b := near53_lt h2 (show 10.75 * 1e-15 ≤ (1e-9:ℝ) by norm_num)
  obtain ⟨p1, p2⟩ := abs_le.1 h1
  obtain ⟨q1, q2⟩ := abs_le.1 h2
  norm_num at a b h3 p1 p2 q1 q2
  have s : |nearest 53 lo + nearest 53 hi| ≤ 21.51 := abs_le.2 ⟨by norm_num; linarith [a.1, b.1], by norm_num; linarith [a.2, b.2]⟩
  have c := near53_lt s (show 21.51 * 1e-15 ≤ (1e-9:ℝ) by norm_num)
  obtain ⟨s1, s2⟩ := abs_le.1 s
  norm_num at c s1 s2
  have s' : |0.5 * nearest 53 (nearest 53 lo + nearest 53 hi)| ≤ 10.76 := by
    rw [abs_le]; constructor <;> norm_num <;> linarith [c.1, c.2]
  have d := near53_lt s' (show 10.76 * 1e-15 ≤ (1e-9:ℝ) by norm_num)
  obtain ⟨t1, t2⟩ := abs_le.1 s'
  norm_num at d t1 t2
  refine ⟨by linarith [a.2, b.1], ?_, ?_⟩
  · rw [abs_le]; constructor <;> linarith [a.1, a.2, b.1, b.2]
  · rw [abs_le]; constructor <;> norm_num <;> linarith [d.1, d.2]

/-- C136: **round trip of one parameter in double precision**: with any of the bounds of `umzr.py` and any `|u| ≤ 100`, bounding and unbounding
returns `u` to within `1e-6`. -/
theorem C136_param_roundtrip {v : ℝ} (hv0 : 0 ≤ v) (hv : v ≤ 2 ^ (-50:ℤ)) (i : Fin 9) (hi : i ≠ 4) {u y r : ℝ} (hu : |u| ≤ 100)
    (hy : y ∈ Rounded.get_square_bounded_param f64 f64 (Rounded.logistic v) u (Umzr.MZR_PBDICT i))
    (hr : r ∈ Rounded.get_square_unbounded_param f64 f64 v y (Umzr.MZR_PBDICT i)) : |r - u| ≤ 1e-6 := by
  obtain ⟨lo, hlo, h, hh, s, rfl, mid, rfl, k, hk, hy⟩ := hy
  obtain ⟨lo', hlo', h', hh', s', rfl, mid', rfl, k', hk', hr⟩ := hr
  rw [lit64 hlo, lit64 hh, lit64 hk] at hy
  rw [lit64 hlo', lit64 hh', lit64 hk'] at hr
  have B : ∀ lo hi : ℝ, |lo| ≤ 10.75 → |hi| ≤ 10.75 → lo + 0.5 ≤ hi → Umzr.MZR_PBDICT i = (lo, hi) → |r - u| ≤ 1e-6 := by
    intro lo hi h1 h2 h3 e
    rw [e] at hy hr
    obtain ⟨b1, b2, b3⟩ := bounds64 h1 h2 h3
    exact roundtrip64 hv0 hv hu b3 tenth_bounds b1 b2 hy hr
  fin_cases i
  · exact B (-1.0) 0.25 (by norm_num [abs_of_pos]) (by norm_num [abs_of_pos]) (by norm_num) rfl
  · exact B 10.25 10.75 (by norm_num [abs_of_pos]) (by norm_num [abs_of_pos]) (by norm_num) rfl
  · exact B 0.5 2 (by norm_num [abs_of_pos]) (by norm_num [abs_of_pos]) (by norm_num) rfl
  · exact B 0.1 1.0 (by norm_num [abs_of_pos]) (by norm_num [abs_of_pos]) (by norm_num) rfl
  · exact absurd rfl hi
  · exact B (-2.0) (-1.0) (by norm_num [abs_of_pos]) (by norm_num [abs_of_pos]) (by norm_num) rfl
  · exact B 0.0 0.5 (by norm_num [abs_of_pos]) (by norm_num [abs_of_pos]) (by norm_num) rfl
  · exact B (-1.5) (-0.5) (by norm_num [abs_of_pos]) (by norm_num [abs_of_pos]) (by norm_num) rfl
  · exact B 0.0 0.5 (by norm_num [abs_of_pos]) (by norm_num [abs_of_pos]) (by norm_num) rfl

/-- the low-mass slope computed in double precision is positive -/
lemma slope_lo_pos {v u y : ℝ} (hv0 : 0 ≤ v) (hv : v ≤ 2 ^ (-50:ℤ))
    (hy : y ∈ Rounded.get_square_bounded_param f64 f64 (Rounded.logistic v) u (Umzr.MZR_PBDICT 3)) : 0 < y := by
  have M : Machine f64 f64 v (2 ^ (-50:ℤ)) := Float64.machine ⟨float64_ieee.1, float64_ieee.2.1, hv0, hv⟩
  obtain ⟨lo, hlo, h, hh, s, rfl, mid, rfl, k, hk, hy⟩ := hy
  rw [lit64 hlo, lit64 hh] at hy
  have e := C135_sigmoid M hy
  have e1 : (Umzr.MZR_PBDICT 3).1 = 0.1 := rfl
  have e2 : (Umzr.MZR_PBDICT 3).2 = 1.0 := rfl
  rw [e1, e2] at e
  have a := near53_lt (x := 0.1) (c := 1) (by norm_num [abs_of_pos]) (show 1 * 1e-15 ≤ (1e-9:ℝ) by norm_num)
  have b := near53_lt (x := 1.0) (c := 1) (by norm_num [abs_of_pos]) (show 1 * 1e-15 ≤ (1e-9:ℝ) by norm_num)
  set l := nearest 53 0.1 with hl
  set g := nearest 53 1.0 with hg
  norm_num at a b
  have hd : 0 ≤ g - l := by linarith [a.2, b.1]
  have ex : Utils.sigmoid u (nearest 53 (0.5 * nearest 53 (l + g))) k l g = l + (g - l) * Jnp.sigmoid (k * (u - nearest 53 (0.5 * nearest 53 (l + g)))) := rfl
  have ge : l ≤ Utils.sigmoid u (nearest 53 (0.5 * nearest 53 (l + g))) k l g := by
    rw [ex]; exact le_add_of_nonneg_right (mul_nonneg hd (sigmoid_pos _).le)
  have e' := (abs_le.1 e).1
  have hl0 : |l| ≤ 1 := abs_le.2 ⟨by linarith [a.1], by linarith [a.2]⟩
  have hg0 : |g - l| ≤ 1 := abs_le.2 ⟨by linarith, by linarith [a.1, b.2]⟩
  have : 6.1 * (2:ℝ) ^ (-50:ℤ) * (|l| + |g - l|) ≤ 6.1 * (2:ℝ) ^ (-50:ℤ) * 2 := mul_le_mul_of_nonneg_left (by linarith) (by positivity)
  norm_num at this e'
  linarith [a.1]

/-- C136: **round trip of all nine parameters in double precision**: `get_unbounded_mzr_params(get_bounded_mzr_params(u))` returns `u` to within
`1e-6` in every entry when all entries of `u` are at most 100 in absolute value. -/
theorem C136_params_roundtrip {v : ℝ} (hv0 : 0 ≤ v) (hv : v ≤ 2 ^ (-50:ℤ)) {u u' : Umzr.MZRUParams} {q : Umzr.MZRParams} (hu : ∀ i, |u.toArray i| ≤ 100)
    (hq : q ∈ Rounded.get_bounded_mzr_params f64 f64 (Rounded.logistic v) u) (hu' : u' ∈ Rounded.get_unbounded_mzr_params f64 f64 v q) :
    ∀ i, |u'.toArray i - u.toArray i| ≤ 1e-6 := by
  obtain ⟨a, ha, hi, ⟨k, hk, hhi⟩, rfl⟩ := hq
  obtain ⟨b, hb, hi', ⟨k', hk', hhi'⟩, rfl⟩ := hu'
  have key : ∀ i, i ≠ 4 → a i = (({ Umzr.MZRParams.ofArray a with mzr_t0_slope_hi := hi } : Umzr.MZRParams)).toArray i →
      |b i - u.toArray i| ≤ 1e-6 := by
    intro i h4 e
    have := hb i
    rw [← e] at this
    exact C136_param_roundtrip hv0 hv i h4 (hu i) (ha i) this
  have four : |hi' - u.u_mzr_t0_slope_hi| ≤ 1e-6 := by
    rw [lit64 hk] at hhi
    rw [lit64 hk'] at hhi'
    have z : (0.0:ℝ) = 0 := by norm_num
    rw [z] at hhi hhi'
    have hp := slope_lo_pos hv0 hv (ha 3)
    exact roundtrip64 hv0 hv (hu 4) (by norm_num) tenth_bounds hp (by rw [abs_zero, sub_zero]; exact mul_nonneg (by norm_num) hp.le) hhi hhi'
  intro i
  fin_cases i
  · exact key 0 (by decide) rfl
  · exact key 1 (by decide) rfl
  · exact key 2 (by decide) rfl
  · exact key 3 (by decide) rfl
  · exact four
  · exact key 5 (by decide) rfl
  · exact key 6 (by decide) rfl
  · exact key 7 (by decide) rfl
  · exact key 8 (by decide) rfl

/-! ### machine computations exist -/

lemma lit_nonempty_ (hP : ∀ x, (P.rnd x).Nonempty) (hA : ∀ x, (A.rnd x).Nonempty) (x : ℝ) : (Rounded.lit P A x).Nonempty :=
  ⟨_, _, (hP x).some_mem, (hA _).some_mem⟩

lemma logistic_nonempty (hv : 0 ≤ v) (x : ℝ) : (Rounded.logistic v x).Nonempty := ⟨Jnp.sigmoid x, by
  show |_ - _| ≤ v; rw [sub_self, abs_zero]; exact hv⟩

lemma log_nonempty (hv : 0 ≤ v) (x : ℝ) : (Rounded.log v x).Nonempty := ⟨Real.log x, by
  show |_ - _| ≤ v * _; rw [sub_self, abs_zero]; exact mul_nonneg hv (le_trans zero_le_one (le_max_left _ _))⟩

lemma logistic_xla_nonempty (hA : ∀ x, (A.rnd x).Nonempty) (hv : 0 ≤ v) (x : ℝ) : (Rounded.logistic_xla A v x).Nonempty :=
  ⟨_, _, (exp_nonempty hv _).some_mem, _, (hA _).some_mem, (hA _).some_mem⟩

lemma sigmoid_nonempty {S : ℝ → Set ℝ} (hA : ∀ x, (A.rnd x).Nonempty) (hS : ∀ x, (S x).Nonempty) (x x0 k ylo yhi : ℝ) :
    (Rounded.sigmoid A S x x0 k ylo yhi).Nonempty :=
  ⟨_, _, (hA _).some_mem, _, (hA _).some_mem, _, (hA _).some_mem, _, (hS _).some_mem, _, (hA _).some_mem, (hA _).some_mem⟩

lemma inverse_sigmoid_nonempty (hA : ∀ x, (A.rnd x).Nonempty) (hv : 0 ≤ v) (y x0 k ylo yhi : ℝ) :
    (Rounded.inverse_sigmoid A v y x0 k ylo yhi).Nonempty :=
  ⟨_, _, (hA _).some_mem, _, (hA _).some_mem, _, (hA _).some_mem, _, (hA _).some_mem, _, (log_nonempty hv _).some_mem, _, (hA _).some_mem,
    (hA _).some_mem⟩

lemma sig_slope_nonempty (hA : ∀ x, (A.rnd x).Nonempty) (hv : 0 ≤ v) (x xtp ytp x0 k lo hi : ℝ) :
    (Rounded.sig_slope A v x xtp ytp x0 k lo hi).Nonempty :=
  ⟨_, _, (sigmoid_nonempty hA (logistic_nonempty hv) _ _ _ _ _).some_mem, _, (hA _).some_mem, _, (hA _).some_mem, (hA _).some_mem⟩

lemma umzr_model_nonempty (hP : ∀ x, (P.rnd x).Nonempty) (hA : ∀ x, (A.rnd x).Nonempty) (hv : 0 ≤ v) (logsm t : ℝ) (p : Umzr.MZRParams) :
    (Rounded.umzr_model P A v logsm t p).Nonempty :=
  ⟨_, _, ⟨_, (sig_slope_nonempty hA hv _ _ _ _ _ _ _).some_mem, _, ⟨_, (hP _).some_mem, _, (log10_nonempty hv _).some_mem, (hA _).some_mem⟩,
      (hA _).some_mem⟩,
    _, ⟨_, ⟨_, (hA _).some_mem, rfl⟩, _, ⟨_, (hA _).some_mem, (hA _).some_mem⟩, _, ⟨_, (hA _).some_mem, (hA _).some_mem⟩,
      _, (lit_nonempty_ hP hA _).some_mem, _, (lit_nonempty_ hP hA _).some_mem, _, (lit_nonempty_ hP hA _).some_mem, _, (hA _).some_mem,
      _, (sig_slope_nonempty hA hv _ _ _ _ _ _ _).some_mem, rfl⟩, (hA _).some_mem⟩

lemma mzr_model_nonempty (hP : ∀ x, (P.rnd x).Nonempty) (hA : ∀ x, (A.rnd x).Nonempty) (hv : 0 ≤ v) (logsm t y0 x0 k lo hi c0 c1 tc s0 s1 : ℝ) :
    (Rounded.mzr_model P A v logsm t y0 x0 k lo hi c0 c1 tc s0 s1).Nonempty :=
  ⟨_, _, ⟨_, (sig_slope_nonempty hA hv _ _ _ _ _ _ _).some_mem, _, ⟨_, (hP _).some_mem, _, (log10_nonempty hv _).some_mem, (hA _).some_mem⟩,
      (hA _).some_mem⟩,
    _, ⟨_, ⟨_, (hA _).some_mem, rfl⟩, _, ⟨_, (hA _).some_mem, (hA _).some_mem⟩, _, (hA _).some_mem, _, ⟨_, (hA _).some_mem, (hA _).some_mem⟩,
      _, (lit_nonempty_ hP hA _).some_mem, _, (hA _).some_mem,
      _, (sig_slope_nonempty hA hv _ _ _ _ _ _ _).some_mem, rfl⟩, (hA _).some_mem⟩

lemma square_bounded_nonempty {S : ℝ → Set ℝ} (hP : ∀ x, (P.rnd x).Nonempty) (hA : ∀ x, (A.rnd x).Nonempty) (hS : ∀ x, (S x).Nonempty) (u : ℝ)
    (b : ℝ × ℝ) : (Rounded.get_square_bounded_param P A S u b).Nonempty :=
  ⟨_, _, (lit_nonempty_ hP hA _).some_mem, _, (lit_nonempty_ hP hA _).some_mem, _, (hA _).some_mem, _, (hA _).some_mem,
    _, (lit_nonempty_ hP hA _).some_mem, (sigmoid_nonempty hA hS _ _ _ _ _).some_mem⟩

lemma square_unbounded_nonempty (hP : ∀ x, (P.rnd x).Nonempty) (hA : ∀ x, (A.rnd x).Nonempty) (hv : 0 ≤ v) (u : ℝ)
    (b : ℝ × ℝ) : (Rounded.get_square_unbounded_param P A v u b).Nonempty :=
  ⟨_, _, (lit_nonempty_ hP hA _).some_mem, _, (lit_nonempty_ hP hA _).some_mem, _, (hA _).some_mem, _, (hA _).some_mem,
    _, (lit_nonempty_ hP hA _).some_mem, (inverse_sigmoid_nonempty hA hv _ _ _ _ _).some_mem⟩

lemma bounded_params_nonempty {S : ℝ → Set ℝ} (hP : ∀ x, (P.rnd x).Nonempty) (hA : ∀ x, (A.rnd x).Nonempty) (hS : ∀ x, (S x).Nonempty)
    (u : Umzr.MZRUParams) : (Rounded.get_bounded_mzr_params P A S u).Nonempty :=
  ⟨_, _, fun _ => (square_bounded_nonempty hP hA hS _ _).some_mem,
    _, ⟨_, (lit_nonempty_ hP hA _).some_mem, (sigmoid_nonempty hA hS _ _ _ _ _).some_mem⟩, rfl⟩

lemma unbounded_params_nonempty (hP : ∀ x, (P.rnd x).Nonempty) (hA : ∀ x, (A.rnd x).Nonempty) (hv : 0 ≤ v) (q : Umzr.MZRParams) :
    (Rounded.get_unbounded_mzr_params P A v q).Nonempty :=
  ⟨_, _, fun _ => (square_unbounded_nonempty hP hA hv _ _).some_mem,
    _, ⟨_, (lit_nonempty_ hP hA _).some_mem, (inverse_sigmoid_nonempty hA hv _ _ _ _ _).some_mem⟩, rfl⟩

lemma surviving_nonempty (hA : ∀ x, (A.rnd x).Nonempty) (hv : 0 ≤ v) (a : ℝ) (p : SurvivingMstar.Params) : (Rounded.surviving_mstar A v a p).Nonempty :=
  ⟨_, _, ⟨_, (exp10_nonempty hv _).some_mem, _, (exp10_nonempty hv _).some_mem, _, (sig_slope_nonempty hA hv _ _ _ _ _ _ _).some_mem,
    (sigmoid_nonempty hA (logistic_nonempty hv) _ _ _ _ _).some_mem⟩, (hA _).some_mem⟩

lemma remnant_nonempty (hA : ∀ x, (A.rnd x).Nonempty) (hv : 0 ≤ v) (a : ℝ) (p : RemnantMass.Params) : (Rounded.remnant_mass A v a p).Nonempty :=
  ⟨_, _, (exp10_nonempty hv _).some_mem, _, (sig_slope_nonempty hA hv _ _ _ _ _ _ _).some_mem, (exp10_nonempty hv _).some_mem⟩

lemma f64_nonempty : ∀ x, (f64.rnd x).Nonempty := binary_nonempty 53 _

lemma v64_nonneg : (0:ℝ) ≤ 2 ^ (-50:ℤ) := by positivity

/-- case: a galaxy of `10^10` at 3 Gyr with the default parameters -/
example : ∃ r ∈ Rounded.umzr_model f64 f64 (2 ^ (-50:ℤ)) 10 3 Umzr.DEFAULT_MZR_PARAMS, |r - Umzr.mzr_model 10 3 Umzr.DEFAULT_MZR_PARAMS| ≤ 4e-11 := by
  obtain ⟨r, hr⟩ := umzr_model_nonempty (v := 2 ^ (-50:ℤ)) f64_nonempty f64_nonempty v64_nonneg 10 3 Umzr.DEFAULT_MZR_PARAMS
  refine ⟨r, hr, C135_umzr_float64 float64_ieee ?_ (by norm_num) (by norm_num) (by norm_num) hr⟩
  constructor <;> (unfold Umzr.DEFAULT_MZR_PARAMS; norm_num)

/-- case: bounded parameters, in single precision; they respect the bounds -/
example : ∃ r ∈ Rounded.get_bounded_mzr_params f64 (binary 24 (by norm_num)) (Rounded.logistic_xla (binary 24 (by norm_num)) (2 ^ (-20:ℤ)))
    ⟨1, 2, -3, 1000, -1e9, 0, 0, 7, 1⟩, 0 ≤ r.mzr_t0_slope_hi ∧ r.mzr_t0_slope_hi ≤ r.mzr_t0_slope_lo := by
  obtain ⟨r, hr⟩ := bounded_params_nonempty (P := f64) (A := binary 24 (by norm_num)) (S := Rounded.logistic_xla (binary 24 (by norm_num)) (2 ^ (-20:ℤ)))
    f64_nonempty (binary_nonempty 24 _) (logistic_xla_nonempty (binary_nonempty 24 _) (by positivity)) ⟨1, 2, -3, 1000, -1e9, 0, 0, 7, 1⟩
  exact ⟨r, hr, (C136_params_in_bounds (Or.inl rfl) (by norm_num) (by norm_num) hr).2⟩

/-- case: a round trip of all nine parameters -/
example : ∃ q ∈ Rounded.get_bounded_mzr_params f64 f64 (Rounded.logistic (2 ^ (-50:ℤ))) ⟨1, 2, -3, 10, -70, 0, 0, 7, 1⟩,
    ∃ u' ∈ Rounded.get_unbounded_mzr_params f64 f64 (2 ^ (-50:ℤ)) q, |u'.u_mzr_t0_slope_hi - -70| ≤ 1e-6 := by
  obtain ⟨q, hq⟩ := bounded_params_nonempty (P := f64) (A := f64) (S := Rounded.logistic (2 ^ (-50:ℤ))) f64_nonempty f64_nonempty
    (logistic_nonempty v64_nonneg) ⟨1, 2, -3, 10, -70, 0, 0, 7, 1⟩
  obtain ⟨u', hu'⟩ := unbounded_params_nonempty (v := 2 ^ (-50:ℤ)) f64_nonempty f64_nonempty v64_nonneg q
  refine ⟨q, hq, u', hu', C136_params_roundtrip v64_nonneg le_rfl ?_ hq hu' 4⟩
  intro i
  fin_cases i <;> simp [Umzr.MZRUParams.toArray] <;> norm_num [abs_of_pos]

lemma litSurviving_nonempty (hP : ∀ x, (P.rnd x).Nonempty) (hA : ∀ x, (A.rnd x).Nonempty) (p : SurvivingMstar.Params) :
    (Rounded.litSurviving P A p).Nonempty :=
  ⟨⟨_, _, _, _, _, _, _, _⟩, (lit_nonempty_ hP hA p.a).some_mem, (lit_nonempty_ hP hA p.b).some_mem, (lit_nonempty_ hP hA p.lgk1).some_mem,
    (lit_nonempty_ hP hA p.d).some_mem, (lit_nonempty_ hP hA p.e).some_mem, (lit_nonempty_ hP hA p.f).some_mem, (lit_nonempty_ hP hA p.lgk2).some_mem,
    (lit_nonempty_ hP hA p.h).some_mem⟩

lemma litRemnant_nonempty (hP : ∀ x, (P.rnd x).Nonempty) (hA : ∀ x, (A.rnd x).Nonempty) (p : RemnantMass.Params) :
    (Rounded.litRemnant P A p).Nonempty :=
  ⟨⟨_, _, _, _, _⟩, (lit_nonempty_ hP hA p.a).some_mem, (lit_nonempty_ hP hA p.b).some_mem, (lit_nonempty_ hP hA p.lgk1).some_mem,
    (lit_nonempty_ hP hA p.d).some_mem, (lit_nonempty_ hP hA p.e).some_mem⟩

/-- case: a Chabrier population of one billion years -/
example : ∃ q ∈ Rounded.litSurviving f64 f64 SurvivingMstar.CHABRIER_PARAMS, ∃ r ∈ Rounded.surviving_mstar f64 (2 ^ (-50:ℤ)) 9 q,
    |r - SurvivingMstar.surviving_mstar 9 SurvivingMstar.CHABRIER_PARAMS| ≤ 2e-12 := by
  obtain ⟨q, hq⟩ := litSurviving_nonempty f64_nonempty f64_nonempty SurvivingMstar.CHABRIER_PARAMS
  obtain ⟨r, hr⟩ := surviving_nonempty (v := 2 ^ (-50:ℤ)) f64_nonempty v64_nonneg 9 q
  exact ⟨q, hq, r, hr, C135_surviving_float64 float64_ieee (by unfold IsSurvivingCalibration; simp) (by norm_num) (by norm_num) hq hr⟩

/-- case: remnants of a Kroupa population of one hundred million years -/
example : ∃ q ∈ Rounded.litRemnant f64 f64 RemnantMass.KROUPA_PARAMS, ∃ r ∈ Rounded.remnant_mass f64 (2 ^ (-50:ℤ)) 8 q,
    |r - RemnantMass.remnant_mass 8 RemnantMass.KROUPA_PARAMS| ≤ 2e-11 * RemnantMass.remnant_mass 8 RemnantMass.KROUPA_PARAMS := by
  obtain ⟨q, hq⟩ := litRemnant_nonempty f64_nonempty f64_nonempty RemnantMass.KROUPA_PARAMS
  obtain ⟨r, hr⟩ := remnant_nonempty (v := 2 ^ (-50:ℤ)) f64_nonempty v64_nonneg 8 q
  exact ⟨q, hq, r, hr, C135_remnant_float64 float64_ieee (by unfold IsRemnantCalibration; simp) (by norm_num) (by norm_num) hq hr⟩

end Dsps.Props
