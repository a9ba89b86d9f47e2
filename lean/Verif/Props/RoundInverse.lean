import Verif.Props.RoundMzr
import Verif.Props.RoundCosmoBits

/-! C136: the round trip unbounded → bounded → unbounded in floating point. -/
namespace Dsps.Props
open Jnp Fl Spec Dsps.Lemmas

variable {P A : Arith} {v ε : ℝ}

/-- C136: XLA's expansion `1/(1+exp(-x))` of the logistic function is accurate to three roundings, also relative to its value, for every `x`; in
particular it meets the accuracy assumed of `nn.sigmoid` in C135. -/
theorem C136_logistic (M : Machine P A v ε) {x s : ℝ} (hs : s ∈ Rounded.logistic_xla A v x) :
    |s - Jnp.sigmoid x| ≤ 3.1 * ε * Jnp.sigmoid x ∧ s ∈ Rounded.logistic (3.1 * ε) x := by
  have hε := M.eps_nonneg
  have h6 := M.small
  obtain ⟨e, he, d, hd, hs⟩ := hs
  have c1 : Close (1.001 * ε) e (Real.exp (-x)) := Close.of_rel M.tolv (Real.exp_pos _).le he
  have c2 := (((Close.refl zero_le_one).mono (show (0:ℝ) ≤ 1.001 * ε by positivity)).add c1).rnd M.tolA hd
  have c3 := ((Close.refl zero_le_one).div c2).rnd M.tolA hs
  have c4 : Close (3.003 * ε) s (Jnp.sigmoid x) := c3.mono (by norm_num; linarith)
  have r := c4.rel (by positivity) (by norm_num at h6 ⊢; linarith)
  have hp := sigmoid_pos x
  have h1 := sigmoid_lt_one x
  have r' : |s - Jnp.sigmoid x| ≤ 3.1 * ε * Jnp.sigmoid x := r.trans (mul_le_mul_of_nonneg_right (by norm_num; linarith) hp.le)
  exact ⟨r', r'.trans (mul_le_of_le_one_right (by positivity) h1.le)⟩

/-- the logarithm in the inverse -/
noncomputable def lnArg (y ylo yhi : ℝ) : ℝ := Real.log ((yhi - ylo) / (y - ylo) - 1)

lemma lnArg_eq {y ylo yhi : ℝ} (h1 : ylo < y) : lnArg y ylo yhi = Real.log ((yhi - y) / (y - ylo)) := by
  unfold lnArg
  congr 1
  have : y - ylo ≠ 0 := by linarith
  field_simp; ring

set_option maxHeartbeats 1000000 in
/-- C136: the inverse sigmoid for machine numbers `ylo < y < yhi`: its error is inversely proportional to the distance of `y` from the **upper**
bound, in units of the width of the interval. -/
theorem C136_inverse (M : Machine P A v ε) {y x0 k ylo yhi r : ℝ} (hk : 0 < k) (h1 : ylo < y) (h2 : y < yhi)
    (hκ : (yhi - ylo) / (yhi - y) * ε ≤ 0.001) (hr : r ∈ Rounded.inverse_sigmoid A v y x0 k ylo yhi) :
    |r - Utils.inverse_sigmoid y x0 k ylo yhi|
      ≤ ε * (1.01 * |x0| + (3.3 * ((yhi - ylo) / (yhi - y)) + 3.1 * |Real.log ((yhi - y) / (y - ylo))| + 2.2) / k) := by
  have hε := M.eps_nonneg
  have h6 := M.small
  obtain ⟨a, ha, b, hb, q, hq, g, hg, l, hl, m, hm, hr⟩ := hr
  have p1 : 0 < y - ylo := sub_pos.2 h1
  have p2 : 0 < yhi - y := sub_pos.2 h2
  have p3 : 0 < yhi - ylo := by linarith
  have ca := (Close.refl p3.le).rnd M.tolA ha
  have cb := (Close.refl p1.le).rnd M.tolA hb
  have cq := (ca.div cb).rnd M.tolA hq
  have cq' : Close (3.003 * ε) q ((yhi - ylo) / (y - ylo)) := cq.mono (by norm_num; linarith)
  have rq := cq'.rel (by positivity) (by norm_num at h6 ⊢; linarith)
  set Q := (yhi - ylo) / (y - ylo) with hQ
  set κ := (yhi - ylo) / (yhi - y) with hκd
  have eQ : Q - 1 = (yhi - y) / (y - ylo) := by rw [hQ]; field_simp; ring
  have hQ1 : 0 < Q - 1 := by rw [eQ]; positivity
  have eκ : Q = κ * (Q - 1) := by rw [eQ, hQ, hκd]; field_simp
  have hκ1 : 1 ≤ κ := by rw [hκd, le_div_iff₀ p2]; linarith
  have cg0 : Close (1.02 * (3.04 * ε * κ)) (q - 1) (Q - 1) := by
    refine Close.of_small hQ1.le (by positivity) ?_ ?_
    · norm_num at hκ ⊢; nlinarith
    · rw [sub_sub_sub_cancel_right]
      refine rq.trans ?_
      calc 1.01 * (3.003 * ε) * Q = 1.01 * (3.003 * ε) * (κ * (Q - 1)) := by rw [← eκ]
        _ ≤ 3.04 * ε * κ * (Q - 1) := by
          have : 0 ≤ ε * κ * (Q - 1) := by positivity
          norm_num; nlinarith
  have cg := cg0.rnd M.tolA hg
  have lg := cg.abs_log hQ1
  rw [eQ] at lg
  set L := Real.log ((yhi - y) / (y - ylo)) with hL
  have lg' : |Real.log g - L| ≤ (3.12 * κ + 1.01) * ε := by
    refine lg.trans ?_
    have : 0 ≤ ε * κ := by positivity
    norm_num; nlinarith
  have hl' : |l - Real.log g| ≤ v * max 1 |Real.log g| := hl
  have small1 : (3.12 * κ + 1.01) * ε ≤ 0.005 := by norm_num at hκ h6 ⊢; nlinarith
  have hmax : max 1 |Real.log g| ≤ 1.005 + |L| := by
    refine max_le (by norm_num; linarith [abs_nonneg L]) ?_
    have := abs_sub_abs_le_abs_sub (Real.log g) L
    norm_num at small1 lg' ⊢; linarith
  have ll : |l - L| ≤ (3.12 * κ + 2.02 + |L|) * ε := by
    have t := abs_add_le (l - Real.log g) (Real.log g - L)
    rw [sub_add_sub_cancel] at t
    have t2 : v * max 1 |Real.log g| ≤ ε * (1.005 + |L|) := mul_le_mul M.lib hmax (le_trans zero_le_one (le_max_left _ _)) hε
    norm_num at t2 lg' ⊢
    nlinarith
  set D := (3.12 * κ + 2.02 + |L|) * ε with hD
  have hD0 : 0 ≤ D := by positivity
  have hm' : |m - l / k| ≤ A.u * |l / k| := A.rel _ _ hm
  have mm : |m - L / k| ≤ (D + ε * (|L| + D)) / k := by
    have t := abs_add_le (m - l / k) (l / k - L / k)
    rw [sub_add_sub_cancel] at t
    have e1 : |l / k - L / k| = |l - L| / k := by rw [← sub_div, abs_div, abs_of_pos hk]
    have e2 : |l / k| ≤ (|L| + D) / k := by
      rw [abs_div, abs_of_pos hk]
      refine div_le_div_of_nonneg_right ?_ hk.le
      have := abs_sub_abs_le_abs_sub l L
      linarith
    have e3 : A.u * |l / k| ≤ ε * ((|L| + D) / k) := mul_le_mul M.jax e2 (abs_nonneg _) hε
    have e4 := div_le_div_of_nonneg_right ll hk.le
    rw [e1] at t
    calc |m - L / k| ≤ ε * ((|L| + D) / k) + D / k := t.trans (add_le_add (hm'.trans e3) e4)
      _ = (D + ε * (|L| + D)) / k := by ring
  have hr' : |r - (x0 - m)| ≤ A.u * |x0 - m| := A.rel _ _ hr
  have ex : Utils.inverse_sigmoid y x0 k ylo yhi = x0 - L / k := by
    unfold Utils.inverse_sigmoid
    simp only
    rw [hL, ← eQ]
  rw [ex]
  have t := abs_add_le (r - (x0 - m)) (L / k - m)
  have ee : r - (x0 - m) + (L / k - m) = r - (x0 - L / k) := by ring
  rw [ee] at t
  have s1 : |x0 - m| ≤ |x0| + (|L| + (D + ε * (|L| + D))) / k := by
    have w1 := abs_sub x0 m
    have w2 : |m| ≤ |L| / k + (D + ε * (|L| + D)) / k := by
      have := abs_sub_abs_le_abs_sub m (L / k)
      rw [abs_div L, abs_of_pos hk] at this
      linarith
    rw [add_div]; linarith
  have s2 : A.u * |x0 - m| ≤ ε * (|x0| + (|L| + (D + ε * (|L| + D))) / k) := mul_le_mul M.jax s1 (abs_nonneg _) hε
  rw [abs_sub_comm (L / k) m] at t
  set F := D + ε * (|L| + D) with hF
  have fin : F + ε * (|L| + F) ≤ ε * (3.3 * κ + 3.1 * |L| + 2.2) := by
    have hL0 := abs_nonneg L
    have b1 : ε * D ≤ 1e-6 * D := mul_le_mul_of_nonneg_right h6 hD0
    have b2 : ε * (ε * |L|) ≤ 1e-6 * (ε * |L|) := mul_le_mul_of_nonneg_right h6 (by positivity)
    have b3 : ε * (ε * D) ≤ 1e-6 * D := by
      have : ε * (ε * D) ≤ 1 * (ε * D) := mul_le_mul_of_nonneg_right (h6.trans (by norm_num)) (by positivity)
      linarith
    have hκ0 : 0 ≤ ε * κ := by positivity
    have hL1 : 0 ≤ ε * |L| := by positivity
    have hDx : D = 3.12 * (ε * κ) + 2.02 * ε + ε * |L| := by rw [hD]; ring
    have eF : F + ε * (|L| + F) = D + 2 * (ε * |L|) + 2 * (ε * D) + ε * (ε * |L|) + ε * (ε * D) := by rw [hF]; ring
    rw [eF]
    have eR : ε * (3.3 * κ + 3.1 * |L| + 2.2) = 3.3 * (ε * κ) + 3.1 * (ε * |L|) + 2.2 * ε := by ring
    rw [eR]
    norm_num at b1 b2 b3 ⊢
    linarith
  have g1 : F / k + ε * ((|L| + F) / k) ≤ ε * ((3.3 * κ + 3.1 * |L| + 2.2) / k) := by
    rw [← mul_div_assoc, ← mul_div_assoc, ← add_div]
    exact div_le_div_of_nonneg_right fin hk.le
  have g2 : 0 ≤ ε * |x0| := by positivity
  have eR : ε * (1.01 * |x0| + (3.3 * κ + 3.1 * |L| + 2.2) / k) = 1.01 * (ε * |x0|) + ε * ((3.3 * κ + 3.1 * |L| + 2.2) / k) := by ring
  have eS : ε * (|x0| + (|L| + F) / k) = ε * |x0| + ε * ((|L| + F) / k) := by ring
  rw [eR]
  rw [eS] at s2
  norm_num at g1 mm ⊢
  linarith


lemma abs_log_near_one {x a : ℝ} (h : |x - 1| ≤ a) (ha : a ≤ 1 / 100) : |Real.log x| ≤ 1.02 * a := by
  obtain ⟨h1, h2⟩ := abs_le.1 h
  have hx : 0 < x := by linarith
  have ha0 : 0 ≤ a := (abs_nonneg _).trans h
  rw [abs_le]
  constructor
  · have := Real.one_sub_inv_le_log_of_pos hx
    have q : x⁻¹ ≤ 1 + 1.02 * a := by
      rw [inv_le_iff_one_le_mul₀ hx]
      have q4 : (1 + 1.02 * a) * (1 - a) ≤ (1 + 1.02 * a) * x := mul_le_mul_of_nonneg_left (by linarith) (by positivity)
      refine le_trans ?_ q4
      norm_num; nlinarith
    linarith
  · have := Real.log_le_sub_one_of_pos hx
    norm_num; linarith

/-- the reciprocal slope of the sigmoid -/
lemma sigmoid_slope (t : ℝ) : 1 / (Jnp.sigmoid t * (1 - Jnp.sigmoid t)) = 2 + Real.exp t + Real.exp (-t) := by
  have h := Real.exp_pos t
  rw [sigmoid_eq, Real.exp_neg]
  field_simp
  ring

lemma log_odds (t : ℝ) : Real.log ((1 - Jnp.sigmoid t) / Jnp.sigmoid t) = -t := by
  have h := Real.exp_pos t
  rw [show (1 - Jnp.sigmoid t) / Jnp.sigmoid t = Real.exp (-t) by rw [sigmoid_eq, Real.exp_neg]; field_simp; ring, Real.log_exp]

set_option maxHeartbeats 1000000 in
/-- C136: **the round trip** through the bounded parameter, with the same machine numbers `x0, k, ylo < yhi` both ways: the recovered value differs
from `u` by roundings amplified by the reciprocal slope `2 + e^t + e^-t` of the sigmoid, `t = k(u-x0)`, and by the size of `ylo` relative to the
width of the interval. -/
theorem C136_roundtrip (M : Machine P A v ε) {u x0 k ylo yhi y r : ℝ} (hk : 0 < k) (hlt : ylo < yhi)
    (hsm : 1100 * ε * ((1 + |ylo| / (yhi - ylo)) * (2 + Real.exp (k * (u - x0)) + Real.exp (-(k * (u - x0))))) ≤ 1)
    (hy : y ∈ Rounded.sigmoid A (Rounded.logistic v) u x0 k ylo yhi) (hr : r ∈ Rounded.inverse_sigmoid A v y x0 k ylo yhi) :
    ylo < y ∧ y < yhi ∧
    |r - u| ≤ ε * (1.01 * |x0| + 13.3 * ((1 + |ylo| / (yhi - ylo)) * (2 + Real.exp (k * (u - x0)) + Real.exp (-(k * (u - x0))))) / k) := by
  have hε := M.eps_nonneg
  have h6 := M.small
  have hD : 0 < yhi - ylo := sub_pos.2 hlt
  have he := C135_sigmoid M hy
  set t := k * (u - x0) with ht
  rw [← sigmoid_slope t] at hsm ⊢
  have hs0 := sigmoid_pos t
  have hs1 := sigmoid_lt_one t
  have hCexp : 1 / (Jnp.sigmoid t * (1 - Jnp.sigmoid t)) = 2 + Real.exp t + Real.exp (-t) := sigmoid_slope t
  have hodds := log_odds t
  have eY : Utils.sigmoid u x0 k ylo yhi = ylo + (yhi - ylo) * Jnp.sigmoid t := rfl
  rw [eY] at he
  set s := Jnp.sigmoid t with hs
  set D := yhi - ylo with hDd
  set C := 1 / (s * (1 - s)) with hC
  set w := 1 + |ylo| / D with hw
  have h1s : 0 < 1 - s := by linarith
  have hss : 0 < s * (1 - s) := mul_pos hs0 h1s
  have hw1 : 1 ≤ w := by rw [hw]; have : 0 ≤ |ylo| / D := by positivity
                         linarith
  have hCs : C = 1 / s + 1 / (1 - s) := by rw [hC]; field_simp; ring
  have i1 : 0 < 1 / s := by positivity
  have i2 : 0 < 1 / (1 - s) := by positivity
  have hC0 : 0 < C := by positivity
  have hwC : 0 ≤ w * C := by positivity
  have hCw : C ≤ w * C := le_mul_of_one_le_left hC0.le hw1
  -- the error of `y`, in units of the width
  have eη : |y - (ylo + D * s)| ≤ 6.1 * ε * w * D := by
    refine he.trans (le_of_eq ?_)
    rw [abs_of_pos hD, hw]; field_simp; ring
  have hbd : 6.1 * ε * w * C ≤ 0.0056 := by norm_num at hsm ⊢; nlinarith
  have r1 : |(y - ylo) / (D * s) - 1| ≤ 6.1 * ε * w * (1 / s) := by
    rw [show (y - ylo) / (D * s) - 1 = (y - (ylo + D * s)) / (D * s) by field_simp; ring, abs_div, abs_of_pos (mul_pos hD hs0),
      div_le_iff₀ (mul_pos hD hs0)]
    refine eη.trans (le_of_eq ?_); field_simp
  have r2 : |(yhi - y) / (D * (1 - s)) - 1| ≤ 6.1 * ε * w * (1 / (1 - s)) := by
    rw [show (yhi - y) / (D * (1 - s)) - 1 = -((y - (ylo + D * s)) / (D * (1 - s))) by rw [hDd] at hD ⊢; field_simp; ring, abs_neg, abs_div,
      abs_of_pos (mul_pos hD h1s), div_le_iff₀ (mul_pos hD h1s)]
    refine eη.trans (le_of_eq ?_); field_simp
  have b1 : 6.1 * ε * w * (1 / s) ≤ 0.0056 := (mul_le_mul_of_nonneg_left (by linarith) (by positivity)).trans hbd
  have b2 : 6.1 * ε * w * (1 / (1 - s)) ≤ 0.0056 := (mul_le_mul_of_nonneg_left (by linarith) (by positivity)).trans hbd
  have q1 : 0 < (y - ylo) / (D * s) := by
    have := (abs_le.1 (r1.trans b1)).1; norm_num at this; linarith
  have q2 : 0.99 ≤ (yhi - y) / (D * (1 - s)) := by
    have := (abs_le.1 (r2.trans b2)).1; norm_num at this ⊢; linarith
  have p1 : 0 < y - ylo := by
    rcases div_pos_iff.1 q1 with h | h
    · exact h.1
    · exact absurd h.2 (not_lt.2 (mul_pos hD hs0).le)
  have q3 : 0.99 * (D * (1 - s)) ≤ yhi - y := (le_div_iff₀ (mul_pos hD h1s)).1 q2
  have p2 : 0 < yhi - y := lt_of_lt_of_le (by positivity) q3
  refine ⟨by linarith, by linarith, ?_⟩
  have hκ : D / (yhi - y) ≤ 1.02 * C := by
    rw [div_le_iff₀ p2]
    have : D ≤ 1.02 * (1 / (1 - s)) * (0.99 * (D * (1 - s))) := by
      rw [show 1.02 * (1 / (1 - s)) * (0.99 * (D * (1 - s))) = (1.02 * 0.99) * D by field_simp]
      norm_num; nlinarith
    refine this.trans (mul_le_mul ?_ q3 (by positivity) (by positivity))
    exact mul_le_mul_of_nonneg_left (by linarith) (by norm_num)
  have hκε : D / (yhi - y) * ε ≤ 0.001 := by
    have : D / (yhi - y) * ε ≤ 1.02 * C * ε := mul_le_mul_of_nonneg_right hκ hε
    norm_num at hsm this ⊢; nlinarith
  have inv := C136_inverse M hk (show ylo < y by linarith) (show y < yhi by linarith) hκε hr
  have ex : Utils.inverse_sigmoid y x0 k ylo yhi = x0 - lnArg y ylo yhi / k := rfl
  rw [ex, lnArg_eq (show ylo < y by linarith)] at inv
  set L := Real.log ((yhi - y) / (y - ylo)) with hL
  have hLt : |L + t| ≤ 6.3 * ε * w * C := by
    have e1 : L + t = Real.log ((yhi - y) / (D * (1 - s))) - Real.log ((y - ylo) / (D * s)) := by
      have q1' := q1.ne'
      have hne : (1 - s) / s ≠ 0 := by positivity
      have : t = -Real.log ((1 - s) / s) := by rw [hodds]; ring
      rw [this, ← sub_eq_add_neg, hL, ← Real.log_div (by positivity) hne, ← Real.log_div (by positivity) q1']
      congr 1
      field_simp
    rw [e1]
    have a1 := abs_log_near_one r1 (b1.trans (by norm_num))
    have a2 := abs_log_near_one r2 (b2.trans (by norm_num))
    refine (abs_sub _ _).trans ?_
    have e2 : 6.1 * ε * w * C = 6.1 * ε * w * (1 / s) + 6.1 * ε * w * (1 / (1 - s)) := by rw [hCs]; ring
    have e3 : 0 ≤ ε * w * C := by positivity
    have e4 : 6.3 * ε * w * C = 6.3 * (ε * w * C) := by ring
    have e5 : 6.1 * ε * w * C = 6.1 * (ε * w * C) := by ring
    rw [e4]; rw [e5] at e2
    norm_num at a1 a2 e2 ⊢
    linarith
  have hLa : |L| ≤ |t| + 0.006 := by
    have := abs_sub_abs_le_abs_sub L (-t)
    rw [sub_neg_eq_add, abs_neg] at this
    have h2 : 6.3 * ε * w * C ≤ 0.006 := by norm_num at hsm ⊢; nlinarith
    norm_num at this h2 ⊢; linarith
  have hta : |t| + 2 ≤ C := by
    rw [hCexp]
    rcases abs_cases t with ⟨h, _⟩ | ⟨h, _⟩ <;> rw [h]
    · linarith [Real.add_one_le_exp t, Real.exp_pos (-t)]
    · linarith [Real.add_one_le_exp (-t), Real.exp_pos t]
  have hu : x0 - L / k - u = -(L + t) / k := by rw [ht]; field_simp; ring
  have tri := abs_add_le (r - (x0 - L / k)) (x0 - L / k - u)
  rw [sub_add_sub_cancel, hu, abs_div, abs_neg, abs_of_pos hk] at tri
  have f1 : (3.3 * (D / (yhi - y)) + 3.1 * |L| + 2.2) / k ≤ 6.5 * (w * C) / k := by
    refine div_le_div_of_nonneg_right ?_ hk.le
    norm_num at hκ hLa ⊢; linarith
  have f2 : |L + t| / k ≤ ε * (6.3 * (w * C) / k) := by
    rw [← mul_div_assoc]
    refine div_le_div_of_nonneg_right (hLt.trans (le_of_eq (by ring))) hk.le
  have f3 := mul_le_mul_of_nonneg_left (add_le_add_right f1 (1.01 * |x0|)) hε
  have f4 : 0 ≤ ε * (w * C / k) := by positivity
  have g : ε * (1.01 * |x0| + 13.3 * (w * C) / k)
      = ε * (1.01 * |x0| + 6.5 * (w * C) / k) + ε * (6.3 * (w * C) / k) + 0.5 * (ε * (w * C / k)) := by ring
  rw [g]
  linarith


/-! ### exact statements about round-to-nearest arithmetic -/
section nearest
variable {p : ℕ}

lemma nearest_nonneg (hp : 1 ≤ p) {x : ℝ} (h : 0 ≤ x) : 0 ≤ nearest p x := by
  have := nearest_mono hp h; rwa [nearest_zero] at this

lemma nearest_one (hp : 1 ≤ p) : nearest p 1 = 1 := by
  refine le_antisymm (nearest_le_one hp (by linarith [show (0:ℝ) < (1 / 2) ^ p by positivity])) ?_
  have h := (nearest_pos_mem hp (show (0:ℝ) < 1 by norm_num)).1
  have e : Int.log 2 |(1:ℝ)| = 0 := by rw [abs_one]; exact Int.log_one_right 2
  rw [e] at h; simpa using h

/-- XLA's logistic lies in `[0,1]` -/
lemma logistic_xla_range (hp : 1 ≤ p) {v t s : ℝ} (hv : v ≤ 1) (hs : s ∈ Rounded.logistic_xla (binary p hp) v t) : 0 ≤ s ∧ s ≤ 1 := by
  obtain ⟨e, he, d, rfl, rfl⟩ := hs
  have he' : |e - Real.exp (-t)| ≤ v * Real.exp (-t) := he
  have h0 := Real.exp_pos (-t)
  have e0 : 0 ≤ e := by nlinarith [(abs_le.1 he').1]
  have d1 : 1 ≤ nearest p (1 + e) := by
    have := nearest_mono hp (show (1:ℝ) ≤ 1 + e by linarith); rwa [nearest_one hp] at this
  refine ⟨nearest_nonneg hp (by positivity), ?_⟩
  have := nearest_mono hp (show 1 / nearest p (1 + e) ≤ 1 by rw [div_le_one (by linarith)]; exact d1)
  rwa [nearest_one hp] at this

/-- C136: **the bounds hold in floating point**: in round-to-nearest arithmetic with any number of bits the value of `_sigmoid` lies between the
machine numbers `ylo` and `yhi` for every argument, position and steepness, provided the single expression `ylo + (yhi - ylo)` does not already
round above `yhi`. -/
theorem C136_in_bounds (hp : 1 ≤ p) {v x x0 k ylo yhi r : ℝ} (hv : v ≤ 1) (hlo : nearest p ylo = ylo) (h : ylo ≤ yhi)
    (hb : nearest p (ylo + nearest p (yhi - ylo)) ≤ yhi)
    (hr : r ∈ Rounded.sigmoid (binary p hp) (Rounded.logistic_xla (binary p hp) v) x x0 k ylo yhi) : ylo ≤ r ∧ r ≤ yhi := by
  obtain ⟨hd, rfl, d, hd', t, ht, s, hs, q, rfl, rfl⟩ := hr
  obtain ⟨s0, s1⟩ := logistic_xla_range hp hv hs
  have g0 : 0 ≤ nearest p (yhi - ylo) := nearest_nonneg hp (by linarith)
  have q0 : 0 ≤ nearest p (nearest p (yhi - ylo) * s) := nearest_nonneg hp (by positivity)
  have q1 : nearest p (nearest p (yhi - ylo) * s) ≤ nearest p (yhi - ylo) := by
    have := nearest_mono hp (mul_le_of_le_one_right g0 s1); rwa [nearest_idem hp] at this
  constructor
  · have := nearest_mono hp (le_add_of_nonneg_right q0 : ylo ≤ ylo + _); rwa [hlo] at this
  · exact (nearest_mono hp (add_le_add_right q1 ylo)).trans hb

/-- computing `nearest` -/
lemma nearest_eq {x : ℝ} (m e : ℤ) (h1 : (2:ℝ) ^ (e + p - 1) ≤ |x|) (h2 : |x| < (2:ℝ) ^ (e + p)) (h3 : |x - m * (2:ℝ) ^ e| < (2:ℝ) ^ e / 2) :
    nearest p x = m * (2:ℝ) ^ e := by
  have hx : 0 < |x| := lt_of_lt_of_le (by positivity) h1
  have hl : Int.log 2 |x| = e + p - 1 := by
    apply le_antisymm
    · have : Int.log 2 |x| < e + p := by
        rw [← Int.lt_zpow_iff_log_lt (by norm_num) hx]; exact_mod_cast h2
      omega
    · rw [← Int.zpow_le_iff_le_log (by norm_num) hx]; exact_mod_cast h1
  have hq : quantum p x = (2:ℝ) ^ e := by rw [quantum, hl]; congr 1; ring
  have hp : (0:ℝ) < (2:ℝ) ^ e := by positivity
  rw [nearest, hq]
  congr 2
  rw [round_eq, Int.floor_eq_iff]
  obtain ⟨a, b⟩ := abs_lt.1 h3
  constructor
  · have : (m - 1 / 2) * (2:ℝ) ^ e ≤ x := by linarith
    have := (le_div_iff₀ hp).2 this
    linarith
  · have : x < (m + 1 / 2) * (2:ℝ) ^ e := by linarith
    have := (div_lt_iff₀ hp).2 this
    linarith

/-- numbers with few bits are exact -/
lemma nearest_exact {x : ℝ} (m e : ℤ) (hx : x = m * (2:ℝ) ^ e) (hm : |(m:ℝ)| < 2 ^ p) : nearest p x = x := by
  rcases eq_or_ne x 0 with h0 | h0
  · rw [h0, nearest_zero]
  have hpx : 0 < |x| := abs_pos.2 h0
  have hl : Int.log 2 |x| < e + p := by
    rw [← Int.lt_zpow_iff_log_lt (by norm_num) hpx, hx, abs_mul, abs_of_pos (by positivity : (0:ℝ) < 2 ^ e)]
    push_cast
    rw [zpow_add₀ (by norm_num), zpow_natCast, mul_comm]
    exact mul_lt_mul_of_pos_left hm (by positivity)
  have hq := quantum_pos p x
  obtain ⟨n, hn⟩ : ∃ n : ℕ, e - (Int.log 2 |x| - p + 1) = n := ⟨(e - (Int.log 2 |x| - p + 1)).toNat, by omega⟩
  have hint : x / quantum p x = ((m * 2 ^ n : ℤ) : ℝ) := by
    have h2 : (2:ℝ) ^ e = 2 ^ n * quantum p x := by
      rw [quantum, ← zpow_natCast, ← zpow_add₀ (by norm_num)]; congr 1; omega
    rw [div_eq_iff hq.ne']
    conv_lhs => rw [hx]
    rw [h2]; push_cast; ring
  rw [nearest, hint, round_intCast, ← hint, div_mul_cancel₀ _ hq.ne']

lemma exp_38 : Real.exp (-37.9) * 1.01 < (1 / 2) ^ 53 := by
  have h1 : Real.exp (-37.9) ≤ Real.exp (-37) := Real.exp_le_exp.2 (by norm_num)
  have h2 : (2.718:ℝ) ^ 37 ≤ Real.exp 37 := by
    have := Real.exp_one_gt_d9
    rw [show (37:ℝ) = (37:ℕ) * 1 by norm_num, Real.exp_nat_mul]
    exact pow_le_pow_left₀ (by norm_num) (by linarith) 37
  have h0 : Real.exp (-37) = (Real.exp 37)⁻¹ := Real.exp_neg 37
  rw [h0] at h1
  have h3 : (Real.exp 37)⁻¹ ≤ ((2.718:ℝ) ^ 37)⁻¹ := inv_anti₀ (by norm_num) h2
  have h4 : ((2.718:ℝ) ^ 37)⁻¹ * 1.01 < (1 / 2) ^ 53 := by norm_num
  nlinarith

/-- C136: **saturation**: in double precision all arguments with `k (x - x0) ≥ 38` give the same number, `ylo + (yhi - ylo)` rounded; a bounded
parameter does not determine the unbounded one there. -/
theorem C136_saturation {v x x0 k ylo yhi r : ℝ} (hv0 : 0 ≤ v) (hv : v ≤ 2 ^ (-50:ℤ)) (ht : 38 ≤ k * (x - x0))
    (hr : r ∈ Rounded.sigmoid f64 (Rounded.logistic_xla f64 v) x x0 k ylo yhi) : r = nearest 53 (ylo + nearest 53 (yhi - ylo)) := by
  have M : Machine f64 f64 v (2 ^ (-50:ℤ)) := Float64.machine ⟨float64_ieee.1, float64_ieee.2.1, hv0, hv⟩
  obtain ⟨hd, rfl, d, hd', t, ht', s, ⟨e, he, d1, rfl, rfl⟩, q, rfl, rfl⟩ := hr
  have hp : 1 ≤ 53 := by norm_num
  have n2 := NearE.of_rnd (ε := 2 ^ (-50:ℤ)) M.jax hd' le_rfl
  have n3 := ((NearE.refl (ε := 2 ^ (-50:ℤ)) (le_refl |k|)).mul M.eps_nonneg n2).rnd M.jax ht'
  rw [← abs_mul] at n3
  have b := M.near_bound (by norm_num) n3
  have hpos : 0 < k * (x - x0) := by linarith
  rw [abs_of_pos hpos] at b
  have t1 : 37.9 ≤ t := by
    have := (abs_le.1 b).1
    norm_num at this ⊢
    linarith
  have he' : |e - Real.exp (-t)| ≤ v * Real.exp (-t) := he
  have e1 : e < (1 / 2) ^ 53 := by
    have h1 : Real.exp (-t) ≤ Real.exp (-37.9) := Real.exp_le_exp.2 (by linarith)
    have h2 := (abs_le.1 he').2
    have h3 : v ≤ 0.01 := hv.trans (by norm_num)
    have h4 := exp_38
    have h5 := Real.exp_pos (-t)
    norm_num at h3 h4 ⊢
    nlinarith
  have e0 : 0 ≤ e := by
    have h2 := (abs_le.1 he').1
    have h5 := Real.exp_pos (-t)
    have h3 : v ≤ 1 := hv.trans (by norm_num)
    nlinarith
  have d1 : nearest 53 (1 + e) = 1 := by
    refine le_antisymm (nearest_le_one hp (by linarith)) ?_
    have := nearest_mono hp (show (1:ℝ) ≤ 1 + e by linarith); rwa [nearest_one hp] at this
  rw [d1, div_one, nearest_one hp, mul_one, nearest_idem hp]

/-- C136: the proviso of `C136_in_bounds` is needed: between `-1` and `1.5 * 2^-53` the double-precision sigmoid saturates at `2^-52`, above the
upper bound. -/
theorem C136_bound_exceeded : ∃ r ∈ Rounded.sigmoid f64 (Rounded.logistic_xla f64 0) 1000 0 1 (-1) (3 / 2 ^ 54), 3 / 2 ^ 54 < r := by
  have ne : (Rounded.sigmoid f64 (Rounded.logistic_xla f64 0) 1000 0 1 (-1) (3 / 2 ^ 54)).Nonempty :=
    ⟨_, _, rfl, _, rfl, _, rfl, _, ⟨Real.exp (-(nearest 53 (1 * nearest 53 (1000 - 0)))),
      (show |Real.exp (-(nearest 53 (1 * nearest 53 (1000 - 0)))) - Real.exp (-(nearest 53 (1 * nearest 53 (1000 - 0))))|
        ≤ 0 * Real.exp (-(nearest 53 (1 * nearest 53 (1000 - 0)))) by simp), _, rfl, rfl⟩, _, rfl, rfl⟩
  obtain ⟨r, hr⟩ := ne
  refine ⟨r, hr, ?_⟩
  rw [C136_saturation le_rfl (by positivity) (by norm_num) hr]
  have h1 : nearest 53 (3 / 2 ^ 54 - -1) = ((2 ^ 52 + 1 : ℤ) : ℝ) * (2:ℝ) ^ (-52:ℤ) := by
    refine nearest_eq _ _ ?_ ?_ ?_
    · rw [abs_of_pos (by norm_num)]; norm_num
    · rw [abs_of_pos (by norm_num)]; norm_num
    · rw [abs_lt]; constructor <;> norm_num
  rw [h1]
  have h2 : nearest 53 (-1 + ((2 ^ 52 + 1 : ℤ) : ℝ) * (2:ℝ) ^ (-52:ℤ)) = -1 + ((2 ^ 52 + 1 : ℤ) : ℝ) * (2:ℝ) ^ (-52:ℤ) :=
    nearest_exact 1 (-52) (by norm_num) (by norm_num)
  rw [h2]; norm_num

/-! #### the parameters of `umzr.py` -/

/-- **Specification.** the bounds as machine numbers: read as binary64, stored with `p` bits -/
noncomputable def machineBound (p : ℕ) (x : ℝ) : ℝ := nearest p (nearest 53 x)

lemma machineBound_exact {x : ℝ} (hp : 24 ≤ p) (m e : ℤ) (hx : x = m * (2:ℝ) ^ e) (hm : |(m:ℝ)| < 2 ^ 24) : machineBound p x = x := by
  have h24 : (2:ℝ) ^ 24 ≤ 2 ^ p := pow_le_pow_right₀ (by norm_num) hp
  rw [machineBound, nearest_exact m e hx (hm.trans (by norm_num)), nearest_exact m e hx (hm.trans_le h24)]

/-- the proviso of `C136_in_bounds` for bounds with few bits -/
lemma proviso_exact {lo hi : ℝ} (hp : 24 ≤ p) (hlo : machineBound p lo = lo) (hhi : machineBound p hi = hi) (m e : ℤ)
    (hx : hi - lo = m * (2:ℝ) ^ e) (hm : |(m:ℝ)| < 2 ^ 24) :
    nearest p (machineBound p lo + nearest p (machineBound p hi - machineBound p lo)) ≤ machineBound p hi := by
  have h24 : (2:ℝ) ^ 24 ≤ 2 ^ p := pow_le_pow_right₀ (by norm_num) hp
  rw [hlo, hhi, nearest_exact m e hx (hm.trans_le h24), add_sub_cancel]
  have h := nearest_idem (p := p) (by omega) (nearest 53 hi)
  rw [show nearest p (nearest 53 hi) = hi from hhi] at h
  exact h.le

lemma tenth53 : nearest 53 0.1 = ((7205759403792794 : ℤ) : ℝ) * (2:ℝ) ^ (-56:ℤ) := by
  refine nearest_eq _ _ ?_ ?_ ?_
  · rw [abs_of_pos (by norm_num)]; norm_num
  · rw [abs_of_pos (by norm_num)]; norm_num
  · rw [abs_lt]; constructor <;> norm_num

lemma tenth24 : machineBound 24 0.1 = ((13421773 : ℤ) : ℝ) * (2:ℝ) ^ (-27:ℤ) := by
  rw [machineBound, tenth53]
  refine nearest_eq _ _ ?_ ?_ ?_
  · rw [abs_of_pos (by norm_num)]; norm_num
  · rw [abs_of_pos (by norm_num)]; norm_num
  · rw [abs_lt]; constructor <;> norm_num

/-- the proviso for the bounds `(0.1, 1.0)`: in both precisions `0.1 + (1 - 0.1)` rounds to 1 -/
lemma proviso_tenth (hp : p = 24 ∨ p = 53) :
    nearest p (machineBound p 0.1 + nearest p (machineBound p 1.0 - machineBound p 0.1)) ≤ machineBound p 1.0 := by
  have h1 : machineBound p 1.0 = 1 := by
    rw [show (1.0:ℝ) = 1 by norm_num]
    exact machineBound_exact (by rcases hp with rfl | rfl <;> norm_num) 1 0 (by norm_num) (by norm_num)
  rw [h1]
  rcases hp with rfl | rfl
  · rw [tenth24]
    have e1 : nearest 24 (1 - ((13421773 : ℤ) : ℝ) * (2:ℝ) ^ (-27:ℤ)) = ((15099494 : ℤ) : ℝ) * (2:ℝ) ^ (-24:ℤ) := by
      refine nearest_eq _ _ ?_ ?_ ?_
      · rw [abs_of_pos (by norm_num)]; norm_num
      · rw [abs_of_pos (by norm_num)]; norm_num
      · rw [abs_lt]; constructor <;> norm_num
    rw [e1]
    exact nearest_le_one (by norm_num) (by norm_num)
  · have e0 : machineBound 53 0.1 = ((7205759403792794 : ℤ) : ℝ) * (2:ℝ) ^ (-56:ℤ) := by
      rw [machineBound, nearest_idem (by norm_num), tenth53]
    rw [e0]
    have e1 : nearest 53 (1 - ((7205759403792794 : ℤ) : ℝ) * (2:ℝ) ^ (-56:ℤ)) = ((8106479329266893 : ℤ) : ℝ) * (2:ℝ) ^ (-53:ℤ) := by
      refine nearest_eq _ _ ?_ ?_ ?_
      · rw [abs_of_pos (by norm_num)]; norm_num
      · rw [abs_of_pos (by norm_num)]; norm_num
      · rw [abs_lt]; constructor <;> norm_num
    rw [e1]
    exact nearest_le_one (by norm_num) (by norm_num)

lemma machineBound_mono (hp : 1 ≤ p) {x y : ℝ} (h : x ≤ y) : machineBound p x ≤ machineBound p y :=
  nearest_mono hp (nearest_mono (by norm_num) h)

lemma pbdict_le (i : Fin 9) : (Umzr.MZR_PBDICT i).1 ≤ (Umzr.MZR_PBDICT i).2 := by
  unfold Umzr.MZR_PBDICT
  fin_cases i <;> simp <;> norm_num

lemma pbdict_proviso (hp : p = 24 ∨ p = 53) (i : Fin 9) (hi : i ≠ 4) :
    nearest p (machineBound p (Umzr.MZR_PBDICT i).1 + nearest p (machineBound p (Umzr.MZR_PBDICT i).2 - machineBound p (Umzr.MZR_PBDICT i).1))
      ≤ machineBound p (Umzr.MZR_PBDICT i).2 := by
  have h24 : 24 ≤ p := by rcases hp with rfl | rfl <;> norm_num
  have E : ∀ (x : ℝ) (m e : ℤ), x = m * (2:ℝ) ^ e → |(m:ℝ)| < 2 ^ 24 → machineBound p x = x := fun x m e h h' => machineBound_exact h24 m e h h'
  fin_cases i
  · exact proviso_exact (lo := (-1.0)) (hi := 0.25) h24 (E (-1.0) (-1) 0 (by norm_num) (by norm_num)) (E 0.25 1 (-2) (by norm_num) (by norm_num)) 5 (-2) (by norm_num)
      (by norm_num)
  · exact proviso_exact (lo := 10.25) (hi := 10.75) h24 (E 10.25 41 (-2) (by norm_num) (by norm_num [abs_of_pos])) (E 10.75 43 (-2) (by norm_num) (by norm_num [abs_of_pos])) 1 (-1)
      (by norm_num) (by norm_num)
  · exact proviso_exact (lo := 0.5) (hi := 2) h24 (E 0.5 1 (-1) (by norm_num) (by norm_num)) (E 2 1 1 (by norm_num) (by norm_num)) 3 (-1) (by norm_num)
      (by norm_num [abs_of_pos])
  · exact proviso_tenth hp
  · exact absurd rfl hi
  · exact proviso_exact (lo := (-2.0)) (hi := (-1.0)) h24 (E (-2.0) (-2) 0 (by norm_num) (by norm_num)) (E (-1.0) (-1) 0 (by norm_num) (by norm_num)) 1 0 (by norm_num)
      (by norm_num)
  · exact proviso_exact (lo := 0.0) (hi := 0.5) h24 (E 0.0 0 0 (by norm_num) (by norm_num)) (E 0.5 1 (-1) (by norm_num) (by norm_num)) 1 (-1) (by norm_num)
      (by norm_num)
  · exact proviso_exact (lo := (-1.5)) (hi := (-0.5)) h24 (E (-1.5) (-3) (-1) (by norm_num) (by norm_num)) (E (-0.5) (-1) (-1) (by norm_num) (by norm_num)) 1 0
      (by norm_num) (by norm_num)
  · exact proviso_exact (lo := 0.0) (hi := 0.5) h24 (E 0.0 0 0 (by norm_num) (by norm_num)) (E 0.5 1 (-1) (by norm_num) (by norm_num)) 1 (-1) (by norm_num)
      (by norm_num)

/-- C136: **the bounds of `get_bounded_mzr_params` hold in floating point**, in single and in double precision and for every `u`, finite but otherwise
arbitrary: each parameter lies between its bounds (as machine numbers), and the high-mass slope between 0 and the low-mass slope. -/
theorem C136_params_in_bounds (hp : p = 24 ∨ p = 53) (hp1 : 1 ≤ p) {v : ℝ} (hv : v ≤ 1) {u : Umzr.MZRUParams} {r : Umzr.MZRParams}
    (hr : r ∈ Rounded.get_bounded_mzr_params f64 (binary p hp1) (Rounded.logistic_xla (binary p hp1) v) u) :
    (∀ i, i ≠ 4 → machineBound p (Umzr.MZR_PBDICT i).1 ≤ r.toArray i ∧ r.toArray i ≤ machineBound p (Umzr.MZR_PBDICT i).2) ∧
    0 ≤ r.mzr_t0_slope_hi ∧ r.mzr_t0_slope_hi ≤ r.mzr_t0_slope_lo := by
  obtain ⟨a, ha, hi, hhi, rfl⟩ := hr
  have key : ∀ i, i ≠ 4 → machineBound p (Umzr.MZR_PBDICT i).1 ≤ a i ∧ a i ≤ machineBound p (Umzr.MZR_PBDICT i).2 ∧ nearest p (a i) = a i := by
    intro i h4
    obtain ⟨lo, ⟨q, rfl, rfl⟩, hi, ⟨q', rfl, rfl⟩, s, hs, mid, hmid, k, hk, h⟩ := ha i
    have hb := C136_in_bounds hp1 hv (nearest_idem hp1 _) (machineBound_mono hp1 (pbdict_le i)) (pbdict_proviso hp i h4) h
    obtain ⟨hd, hhd, d, hd', t, ht, s, hs, q, hq, hr⟩ := h
    refine ⟨hb.1, hb.2, ?_⟩
    have : a i = nearest p _ := hr
    rw [this, nearest_idem hp1]
  have h3 := key 3 (by decide)
  have lo0 : 0 ≤ a 3 := by
    refine le_trans ?_ h3.1
    exact nearest_nonneg hp1 (nearest_nonneg (by norm_num) (by unfold Umzr.MZR_PBDICT; simp; norm_num))
  obtain ⟨k, hk, h⟩ := hhi
  have z : (0.0:ℝ) = 0 := by norm_num
  rw [z] at h
  have hb := C136_in_bounds hp1 hv (nearest_zero p) lo0 (by rw [sub_zero, zero_add, nearest_idem hp1]; exact h3.2.2.le) h
  refine ⟨fun i h4 => ?_, hb.1, hb.2⟩
  fin_cases i
  · exact ⟨(key 0 h4).1, (key 0 h4).2.1⟩
  · exact ⟨(key 1 h4).1, (key 1 h4).2.1⟩
  · exact ⟨(key 2 h4).1, (key 2 h4).2.1⟩
  · exact ⟨(key 3 h4).1, (key 3 h4).2.1⟩
  · exact absurd rfl h4
  · exact ⟨(key 5 h4).1, (key 5 h4).2.1⟩
  · exact ⟨(key 6 h4).1, (key 6 h4).2.1⟩
  · exact ⟨(key 7 h4).1, (key 7 h4).2.1⟩
  · exact ⟨(key 8 h4).1, (key 8 h4).2.1⟩

end nearest
end Dsps.Props
