import Verif.Model.RoundedBurst
import Verif.Lemmas.RoundJoint
import Verif.Props.RoundMzr

/-! C137: age weights of bursts in machine arithmetic. -/
namespace Dsps.Props
open Jnp Fl Spec Dsps.Lemmas

variable {P A : Arith} {v ε : ℝ} {n : ℕ}

/-- **Specification.** the triweight kernel of unit width: `35/96 (1 - (z/3)^2)^3` for `|z| ≤ 3`, zero outside -/
noncomputable def twKernel (z : ℝ) : ℝ := 35 / 96 * max 0 (1 - (z / 3) ^ 2) ^ 3

lemma twKernel_nonneg (z : ℝ) : 0 ≤ twKernel z := by unfold twKernel; positivity

lemma twKernel_le (z : ℝ) : twKernel z ≤ 35 / 96 := by
  have h : max 0 (1 - (z / 3) ^ 2) ≤ 1 := max_le zero_le_one (by nlinarith [sq_nonneg (z / 3)])
  have : max 0 (1 - (z / 3) ^ 2) ^ 3 ≤ 1 := pow_le_one₀ (le_max_left _ _) h
  unfold twKernel; linarith

lemma twKernel_out {z : ℝ} (h : 3 ≤ |z|) : twKernel z = 0 := by
  have : 1 - (z / 3) ^ 2 ≤ 0 := by
    have := sq_abs z
    nlinarith
  unfold twKernel; rw [max_eq_left this]; norm_num

lemma twKernel_in {z : ℝ} (h : |z| ≤ 3) : twKernel z = 35 / 96 * (1 - (z / 3) ^ 2) ^ 3 := by
  have : 0 ≤ 1 - (z / 3) ^ 2 := by
    have := sq_abs z
    have := abs_nonneg z
    nlinarith
  unfold twKernel; rw [max_eq_right this]

lemma triweight_eq_kernel (x m h : ℝ) : Utils.triweight_gaussian x m h = twKernel ((x - m) / h) / h := by
  unfold Utils.triweight_gaussian
  simp only
  split_ifs with c
  · rw [twKernel_out, zero_div]
    rcases c with c | c
    · exact le_trans (by linarith) (neg_le_abs _)
    · exact c.le.trans (le_abs_self _)
  · push Not at c
    rw [twKernel_in (abs_le.2 c)]

lemma clip_kernel (z : ℝ) : max 0 (1 - (z / 3) ^ 2) = 1 - (max (-1) (min 1 (z / 3))) ^ 2 := by
  rcases le_total 1 (z / 3) with h | h
  · rw [min_eq_left h, max_eq_right (show (-1:ℝ) ≤ 1 by norm_num), max_eq_left (show 1 - (z / 3) ^ 2 ≤ 0 by nlinarith)]; norm_num
  · rw [min_eq_right h]
    rcases le_total (-1) (z / 3) with h' | h'
    · rw [max_eq_right h', max_eq_right (by nlinarith)]
    · rw [max_eq_left h', max_eq_left (by nlinarith)]; norm_num

lemma twKernel_lipschitz (z w : ℝ) : |twKernel z - twKernel w| ≤ 35 / 48 * |z - w| := by
  set c := max (-1) (min 1 (z / 3)) with hc
  set d := max (-1) (min 1 (w / 3)) with hd
  have c1 : |c| ≤ 1 := abs_le.2 ⟨le_max_left _ _, max_le (by norm_num) (min_le_left _ _)⟩
  have d1 : |d| ≤ 1 := abs_le.2 ⟨le_max_left _ _, max_le (by norm_num) (min_le_left _ _)⟩
  have cd : |c - d| ≤ |z - w| / 3 := by
    have h1 : |c - d| ≤ |min 1 (z / 3) - min 1 (w / 3)| := by
      have := abs_max_sub_max_le_abs (min 1 (z / 3)) (min 1 (w / 3)) (-1)
      rwa [max_comm, max_comm (min 1 (w / 3))] at this
    have h2 : |min 1 (z / 3) - min 1 (w / 3)| ≤ |z / 3 - w / 3| := by
      have := abs_min_sub_min_le_max 1 (z / 3) 1 (w / 3); simpa using this
    rw [← sub_div, abs_div, abs_of_pos (show (0:ℝ) < 3 by norm_num)] at h2
    exact h1.trans h2
  have e : ∀ z, twKernel z = 35 / 96 * (1 - (max (-1) (min 1 (z / 3))) ^ 2) ^ 3 := fun z => by unfold twKernel; rw [clip_kernel]
  rw [e, e, ← hc, ← hd]
  have p0 : 0 ≤ 1 - c ^ 2 := by have := sq_abs c; nlinarith [abs_nonneg c]
  have p1 : 1 - c ^ 2 ≤ 1 := by nlinarith [sq_nonneg c]
  have q0 : 0 ≤ 1 - d ^ 2 := by have := sq_abs d; nlinarith [abs_nonneg d]
  have q1 : 1 - d ^ 2 ≤ 1 := by nlinarith [sq_nonneg d]
  have f : 35 / 96 * (1 - c ^ 2) ^ 3 - 35 / 96 * (1 - d ^ 2) ^ 3
      = 35 / 96 * ((c - d) * -((c + d) * ((1 - c ^ 2) ^ 2 + (1 - c ^ 2) * (1 - d ^ 2) + (1 - d ^ 2) ^ 2))) := by ring
  rw [f, abs_mul, abs_mul, abs_neg, abs_mul, abs_of_pos (show (0:ℝ) < 35 / 96 by norm_num)]
  have g1 : |c + d| ≤ 2 := (abs_add_le _ _).trans (by linarith)
  have g2 : |(1 - c ^ 2) ^ 2 + (1 - c ^ 2) * (1 - d ^ 2) + (1 - d ^ 2) ^ 2| ≤ 3 := by
    rw [abs_of_nonneg (by positivity)]
    nlinarith [mul_le_mul p1 q1 q0 zero_le_one]
  have g3 : |c + d| * |(1 - c ^ 2) ^ 2 + (1 - c ^ 2) * (1 - d ^ 2) + (1 - d ^ 2) ^ 2| ≤ 2 * 3 := mul_le_mul g1 g2 (abs_nonneg _) (by norm_num)
  have g4 := mul_le_mul cd g3 (by positivity) (by positivity)
  linarith

/-! ### centre and width -/

/-- **Specification.** the condition number of a burst: how large `lgyr_peak` and `lgyr_max` are compared with their difference -/
noncomputable def burstCond (lgyr_peak lgyr_max : ℝ) : ℝ := (|lgyr_peak| + (lgyr_max - lgyr_peak) + |lgyr_max|) / (lgyr_max - lgyr_peak)

lemma one_le_burstCond {a b : ℝ} (h : a < b) : 1 ≤ burstCond a b := by
  have : 0 < b - a := sub_pos.2 h
  rw [burstCond, le_div_iff₀ this]
  linarith [abs_nonneg a, abs_nonneg b]

/-- the machine's centre and width of the kernel -/
lemma burst_frame (M : Machine P A v ε) {a b s lo t x0 dl h : ℝ} (hab : a < b) (hs : s ∈ A.sub b a) (hlo : lo ∈ A.sub a s) (ht : t ∈ A.add lo b)
    (hx0 : x0 ∈ A.mul 0.5 t) (hdl : dl ∈ A.sub b lo) (hh : h ∈ A.div dl 6) :
    |x0 - a| ≤ 2.02 * (ε * burstCond a b) * (b - a) ∧ |h - (b - a) / 3| ≤ 2.03 * (ε * burstCond a b) * ((b - a) / 3) := by
  have hε := M.eps_nonneg
  have hD : 0 < b - a := sub_pos.2 hab
  have eR : burstCond a b * (b - a) = |a| + (b - a) + |b| := by unfold burstCond; field_simp
  set R := |a| + (b - a) + |b| with hR
  have n1 : NearE ε 1 (b - a) s (b - a) := NearE.of_rnd M.jax hs (le_of_eq (abs_of_pos hD))
  have n2 := ((NearE.refl (ε := ε) (le_refl |a|)).sub hε n1).rnd M.jax hlo
  have n3 := (n2.add hε (NearE.refl (ε := ε) (le_refl |b|))).rnd M.jax ht
  have n4 := ((NearE.refl (ε := ε) (x := 0.5) (M := 0.5) (by norm_num [abs_of_pos])).mul hε n3).rnd M.jax hx0
  have n5 := ((NearE.refl (ε := ε) (le_refl |b|)).sub hε n2).rnd M.jax hdl
  have n6 := n5.mul hε (NearE.refl (ε := ε) (x := 1 / 6) (M := 1 / 6) (by norm_num [abs_of_pos]))
  have n7 := n6.rnd M.jax (show h ∈ A.rnd (dl * (1 / 6)) by rw [mul_one_div]; exact hh)
  have b4 := M.near_bound (by norm_num) n4
  have b7 := M.near_bound (by norm_num) n7
  have e4 : 0.5 * (a - (b - a) + b) = a := by norm_num; ring
  have e7 : (b - (a - (b - a))) * (1 / 6) = (b - a) / 3 := by ring
  rw [e4] at b4
  rw [e7] at b7
  have h0 : 0 ≤ ε * R := by rw [← eR]; have := one_le_burstCond hab; positivity
  constructor
  · refine b4.trans ?_
    rw [show 2.02 * (ε * burstCond a b) * (b - a) = 2.02 * ε * (burstCond a b * (b - a)) by ring, eR, hR]
    norm_num; linarith
  · refine b7.trans ?_
    rw [show 2.03 * (ε * burstCond a b) * ((b - a) / 3) = 2.03 / 3 * ε * (burstCond a b * (b - a)) by ring, eR]
    have : |b| + (|a| + (b - a)) = R := by rw [hR]; ring
    rw [this]
    norm_num; linarith

/-! ### one age -/

set_option maxHeartbeats 1000000 in
/-- the machine's distance of an age from the peak, in units of the width -/
lemma burst_z (M : Machine P A v ε) {a b x x' x0 h d z : ℝ} (hab : a < b) (hρ : ε * burstCond a b ≤ 1 / 1000)
    (h1 : |x0 - a| ≤ 2.02 * (ε * burstCond a b) * (b - a)) (h2 : |h - (b - a) / 3| ≤ 2.03 * (ε * burstCond a b) * ((b - a) / 3))
    (hx : |x' - x| ≤ ε * |x|) (hd : d ∈ A.sub x' x0) (hz : z ∈ A.div d h) :
    |z - (x - a) / ((b - a) / 3)| ≤ (5.1 * |(x - a) / ((b - a) / 3)| + 9.2) * (ε * burstCond a b) := by
  have hε := M.eps_nonneg
  have h6 := M.small
  have hD : 0 < b - a := sub_pos.2 hab
  have hC := one_le_burstCond hab
  set ρ := ε * burstCond a b with hρd
  have hρ0 : 0 ≤ ρ := by positivity
  have hερ : ε ≤ ρ := le_mul_of_one_le_right hε hC
  set w := (b - a) / 3 with hw
  have hw0 : 0 < w := by positivity
  set Z := (x - a) / w with hZ
  have exZ : x - a = Z * w := by rw [hZ]; field_simp
  have hpk : ε * |a| ≤ 3 * ρ * w := by
    have : |a| ≤ burstCond a b * (b - a) := by
      unfold burstCond; rw [div_mul_cancel₀ _ hD.ne']; linarith [abs_nonneg b]
    calc ε * |a| ≤ ε * (burstCond a b * (b - a)) := mul_le_mul_of_nonneg_left this hε
      _ = 3 * ρ * w := by rw [hρd, hw]; ring
  -- the numerator
  set e := x' - x0 - (x - a) with he
  have hxa : |x| ≤ |a| + |Z| * w := by
    have : x = a + Z * w := by linarith
    rw [this]; refine (abs_add_le _ _).trans ?_
    rw [abs_mul, abs_of_pos hw0]
  have he1 : |e| ≤ (9.06 * ρ + ρ * |Z|) * w := by
    have t : |e| ≤ |x' - x| + |x0 - a| := by
      rw [he, show x' - x0 - (x - a) = (x' - x) - (x0 - a) by ring]; exact abs_sub _ _
    have t2 : ε * |x| ≤ 3 * ρ * w + ρ * |Z| * w := by
      have q1 := mul_le_mul_of_nonneg_left hxa hε
      have q2 : ε * (|Z| * w) ≤ ρ * (|Z| * w) := mul_le_mul_of_nonneg_right hερ (by positivity)
      nlinarith
    have t3 : 2.02 * ρ * (b - a) = 6.06 * ρ * w := by rw [hw]; ring
    rw [t3] at h1
    nlinarith
  set κ := e / w with hκ
  have hκ1 : |κ| ≤ 9.06 * ρ + ρ * |Z| := by rw [hκ, abs_div, abs_of_pos hw0, div_le_iff₀ hw0]; exact he1
  have hxx : x' - x0 = (Z + κ) * w := by rw [add_mul, ← exZ, hκ, div_mul_cancel₀ _ hw0.ne', he]; ring
  -- the quotient
  have hd' : |d - (Z + κ) * w| ≤ ε * |(Z + κ) * w| := by
    have := A.rel _ _ hd
    rw [hxx] at this
    exact this.trans (mul_le_mul_of_nonneg_right M.jax (abs_nonneg _))
  rw [abs_mul, abs_of_pos hw0] at hd'
  have hz' : |z - d / h| ≤ ε * |d / h| := (A.rel _ _ hz).trans (mul_le_mul_of_nonneg_right M.jax (abs_nonneg _))
  have hh1 : 0.9979 * w ≤ h := by
    have := (abs_le.1 h2).1; norm_num; nlinarith
  have hh0 : 0 < h := lt_of_lt_of_le (by positivity) hh1
  have hdh : |d / h - (Z + κ)| ≤ 1.0022 * (ε + 2.03 * ρ) * |Z + κ| := by
    have e1 : d / h - (Z + κ) = (d - (Z + κ) * w - (Z + κ) * (h - w)) / h := by field_simp; ring
    rw [e1, abs_div, abs_of_pos hh0, div_le_iff₀ hh0]
    refine (abs_sub _ _).trans ?_
    rw [abs_mul]
    have q : |Z + κ| * |h - w| ≤ |Z + κ| * (2.03 * ρ * w) := mul_le_mul_of_nonneg_left h2 (abs_nonneg _)
    have q2 : ε * (|Z + κ| * w) + |Z + κ| * (2.03 * ρ * w) = (ε + 2.03 * ρ) * |Z + κ| * w := by ring
    have q3 : (ε + 2.03 * ρ) * |Z + κ| * w ≤ 1.0022 * (ε + 2.03 * ρ) * |Z + κ| * h := by
      have q4 : w ≤ 1.0022 * h := by norm_num at hh1 ⊢; linarith
      calc (ε + 2.03 * ρ) * |Z + κ| * w ≤ (ε + 2.03 * ρ) * |Z + κ| * (1.0022 * h) := mul_le_mul_of_nonneg_left q4 (by positivity)
        _ = _ := by ring
    linarith
  have hs : 1.0022 * (ε + 2.03 * ρ) ≤ 3.04 * ρ := by norm_num; nlinarith
  have hdh' : |d / h - (Z + κ)| ≤ 3.04 * ρ * |Z + κ| := hdh.trans (mul_le_mul_of_nonneg_right hs (abs_nonneg _))
  have hz2 : |z - (Z + κ)| ≤ 4.05 * ρ * |Z + κ| := by
    have t := abs_add_le (z - d / h) (d / h - (Z + κ))
    rw [sub_add_sub_cancel] at t
    have t2 : |d / h| ≤ (1 + 3.04 * ρ) * |Z + κ| := by
      have := abs_sub_abs_le_abs_sub (d / h) (Z + κ); linarith
    have t3 : ε * |d / h| ≤ ρ * ((1 + 3.04 * ρ) * |Z + κ|) := mul_le_mul hερ t2 (abs_nonneg _) hρ0
    have t4 : ρ * ((1 + 3.04 * ρ) * |Z + κ|) ≤ 1.01 * ρ * |Z + κ| := by
      have : ρ * (1 + 3.04 * ρ) ≤ 1.01 * ρ := by norm_num; nlinarith
      calc _ = ρ * (1 + 3.04 * ρ) * |Z + κ| := by ring
        _ ≤ _ := mul_le_mul_of_nonneg_right this (abs_nonneg _)
    norm_num at *; linarith
  have t := abs_add_le (z - (Z + κ)) κ
  rw [show z - (Z + κ) + κ = z - Z by ring] at t
  have hZκ : |Z + κ| ≤ |Z| + |κ| := abs_add_le _ _
  have u1 : 4.05 * ρ * |Z + κ| ≤ 4.05 * ρ * (|Z| + (9.06 * ρ + ρ * |Z|)) :=
    mul_le_mul_of_nonneg_left (hZκ.trans (by linarith)) (by positivity)
  have u2 : ρ * (9.06 * ρ + ρ * |Z|) ≤ 1 / 1000 * (9.06 * ρ + ρ * |Z|) := mul_le_mul_of_nonneg_right hρ (by positivity)
  have hρZ : 0 ≤ ρ * |Z| := by positivity
  have e1 : (5.1 * |Z| + 9.2) * ρ = 5.1 * (ρ * |Z|) + 9.2 * ρ := by ring
  have e2 : 4.05 * ρ * (|Z| + (9.06 * ρ + ρ * |Z|)) = 4.05 * (ρ * |Z|) + 4.05 * (ρ * (9.06 * ρ + ρ * |Z|)) := by ring
  rw [e1]
  rw [e2] at u1
  norm_num at *
  linarith

/-- the polynomial of the kernel in machine arithmetic -/
lemma kernel_near (M : Machine P A v ε) {z q q2 o o3 c p : ℝ} (hz : |z| ≤ 3) (hq : q ∈ A.div z 3) (hq2 : Rounded.IntPow A q 2 q2) (ho : o ∈ A.sub 1 q2)
    (ho3 : Rounded.IntPow A o 3 o3) (hc : c ∈ Rounded.lit P A (35 / 96)) (hp : p ∈ A.mul c o3) : |p - twKernel z| ≤ 51 * ε := by
  have hε := M.eps_nonneg
  have n1 : NearE ε 1 1 q (z / 3) := NearE.of_rnd M.jax hq (by rw [abs_div, abs_of_pos (show (0:ℝ) < 3 by norm_num)]; linarith)
  have n2 := (n1.intPow M.jax hq2).2
  have n3 := ((NearE.refl (ε := ε) (x := 1) (M := 1) (by simp)).sub hε n2).rnd M.jax ho
  have n4 := (n3.intPow M.jax ho3).2
  have n5 := NearE.lit M.python M.jax hc (le_refl _)
  have n6 := (n5.mul hε n4).rnd M.jax hp
  have b := M.near_bound (by norm_num) n6
  rw [twKernel_in hz]
  refine b.trans ?_
  rw [abs_of_pos (show (0:ℝ) < 35 / 96 by norm_num)]
  norm_num
  linarith

set_option maxHeartbeats 1000000 in
/-- one value of the kernel, in units of the exact height -/
lemma burst_value (M : Machine P A v ε) {a b x x' x0 h r : ℝ} (hab : a < b) (hρ : ε * burstCond a b ≤ 1 / 1000)
    (h1 : |x0 - a| ≤ 2.02 * (ε * burstCond a b) * (b - a)) (h2 : |h - (b - a) / 3| ≤ 2.03 * (ε * burstCond a b) * ((b - a) / 3))
    (hx : |x' - x| ≤ ε * |x|) (hr : r ∈ Rounded.triweight_gaussian P A x' x0 h) :
    |r - twKernel ((x - a) / ((b - a) / 3)) / ((b - a) / 3)| ≤ 73 * (ε * burstCond a b) / ((b - a) / 3) := by
  obtain ⟨d, hd, z, hz, q, hq, q2, hq2, o, ho, o3, ho3, c, hc, p, hp, val, hval, rfl⟩ := hr
  have hzz := burst_z M hab hρ h1 h2 hx hd hz
  have hε := M.eps_nonneg
  have h6 := M.small
  have hD : 0 < b - a := sub_pos.2 hab
  have hC := one_le_burstCond hab
  set ρ := ε * burstCond a b with hρd
  have hρ0 : 0 ≤ ρ := by positivity
  have hερ : ε ≤ ρ := le_mul_of_one_le_right hε hC
  set w := (b - a) / 3 with hw
  have hw0 : 0 < w := by positivity
  set Z := (x - a) / w with hZ
  have hK0 := twKernel_nonneg Z
  have hK1 := twKernel_le Z
  have hh1 : 0.9979 * w ≤ h := by
    have := (abs_le.1 h2).1; norm_num; nlinarith
  have hh0 : 0 < h := lt_of_lt_of_le (by positivity) hh1
  -- kernel at the machine's `z`
  have hkz : |twKernel z - twKernel Z| ≤ 18.4 * ρ := by
    rcases le_total |Z| 3.1 with c1 | c1
    · refine (twKernel_lipschitz z Z).trans ?_
      have : (5.1 * |Z| + 9.2) * ρ ≤ (5.1 * 3.1 + 9.2) * ρ := mul_le_mul_of_nonneg_right (by norm_num at *; linarith) hρ0
      norm_num at *; linarith
    · have e1 : twKernel Z = 0 := twKernel_out (le_trans (by norm_num) c1)
      have e2 : twKernel z = 0 := by
        apply twKernel_out
        have := abs_sub_abs_le_abs_sub Z z
        rw [abs_sub_comm Z z] at this
        have t : (5.1 * |Z| + 9.2) * ρ ≤ (5.1 * |Z| + 9.2) * (1 / 1000) := mul_le_mul_of_nonneg_left hρ (by positivity)
        norm_num at *; linarith
      rw [e1, e2, sub_self, abs_zero]; positivity
  rw [le_div_iff₀ hw0, ← abs_of_pos hw0, ← abs_mul, abs_of_pos hw0, sub_mul, div_mul_cancel₀ _ hw0.ne']
  split_ifs with out
  · have e2 : twKernel z = 0 := by
      apply twKernel_out
      rcases out with o | o
      · exact le_trans (by linarith) (neg_le_abs _)
      · exact o.le.trans (le_abs_self _)
    rw [e2] at hkz
    rw [zero_mul]
    refine hkz.trans ?_
    exact mul_le_mul_of_nonneg_right (by norm_num) hρ0
  · push Not at out
    have hk := kernel_near M (abs_le.2 out) hq hq2 ho ho3 hc hp
    have hv : |val - p / h| ≤ ε * |p / h| := (A.rel _ _ hval).trans (mul_le_mul_of_nonneg_right M.jax (abs_nonneg _))
    have hpK : |p - twKernel Z| ≤ 69.4 * ρ := by
      have t := abs_add_le (p - twKernel z) (twKernel z - twKernel Z)
      rw [sub_add_sub_cancel] at t
      norm_num at *; linarith
    have hp1 : |p| ≤ 0.44 := by
      have := abs_sub_abs_le_abs_sub p (twKernel Z)
      rw [abs_of_nonneg hK0] at this
      norm_num at *; linarith
    have hwh : w / h ≤ 1.0022 := by rw [div_le_iff₀ hh0]; norm_num at hh1 ⊢; linarith
    have hwh0 : 0 < w / h := by positivity
    have t1 : |val * w - p * (w / h)| ≤ 0.45 * ρ := by
      have e1 : val * w - p * (w / h) = (val - p / h) * w := by field_simp
      have e2 : |p / h| * w = |p| * (w / h) := by rw [abs_div, abs_of_pos hh0]; ring
      rw [e1, abs_mul, abs_of_pos hw0]
      have q1 : ε * |p / h| * w = ε * (|p| * (w / h)) := by rw [mul_assoc, e2]
      have q2 : |p| * (w / h) ≤ 0.44 * 1.0022 := mul_le_mul hp1 hwh hwh0.le (by norm_num)
      have q3 : ε * (|p| * (w / h)) ≤ ρ * (0.44 * 1.0022) := mul_le_mul hερ q2 (by positivity) hρ0
      have q4 := mul_le_mul_of_nonneg_right hv hw0.le
      norm_num at *; linarith
    have t2 : |p * (w / h) - twKernel Z| ≤ 70.5 * ρ := by
      have e1 : p * (w / h) - twKernel Z = (p - twKernel Z) * (w / h) - twKernel Z * ((h - w) / h) := by field_simp; ring
      rw [e1]
      refine (abs_sub _ _).trans ?_
      rw [abs_mul, abs_mul, abs_of_pos hwh0, abs_of_nonneg hK0, abs_div, abs_of_pos hh0]
      have q1 : |p - twKernel Z| * (w / h) ≤ 69.4 * ρ * 1.0022 := mul_le_mul hpK hwh hwh0.le (by positivity)
      have q2 : |h - w| / h ≤ 2.03 * ρ * 1.0022 := by
        calc |h - w| / h ≤ 2.03 * ρ * w / h := div_le_div_of_nonneg_right h2 hh0.le
          _ = 2.03 * ρ * (w / h) := by ring
          _ ≤ _ := mul_le_mul_of_nonneg_left hwh (by positivity)
      have q3 : twKernel Z * (|h - w| / h) ≤ 35 / 96 * (2.03 * ρ * 1.0022) := mul_le_mul hK1 q2 (by positivity) (by norm_num)
      norm_num at *; linarith
    have t := abs_add_le (val * w - p * (w / h)) (p * (w / h) - twKernel Z)
    rw [sub_add_sub_cancel] at t
    norm_num at *; linarith

/-! ### all ages -/

/-- `(1/(1-u))^d - 1` for few additions -/
lemma growth_le {d : ℕ} {u ε : ℝ} (h0 : 0 ≤ u) (hu : u ≤ ε) (h6 : ε ≤ 1e-6) (hd : d * ε ≤ 0.009) : (1 / (1 - u)) ^ d - 1 ≤ 1.03 * d * ε := by
  have hε : 0 ≤ ε := h0.trans hu
  have h1 : 1 / (1 - u) ≤ 1 + 1.01 * ε := by
    rw [div_le_iff₀ (by norm_num at h6; linarith)]
    norm_num at h6 ⊢; nlinarith
  have h7 : 0 ≤ 1 / (1 - u) := by
    have : 0 < 1 - u := by norm_num at h6; linarith
    positivity
  have h2 : (1 / (1 - u)) ^ d ≤ (1 + 1.01 * ε) ^ d := pow_le_pow_left₀ h7 h1 d
  have h3 := pow_sub_one_le (ε := 1.01 * ε) (by positivity) (k := d) (by norm_num at hd ⊢; linarith)
  have h4 : (0:ℝ) ≤ d * ε := by positivity
  have h5 : 1.01 * (d:ℝ) * (1.01 * ε) ≤ 1.03 * d * ε := by norm_num; nlinarith
  linarith

/-- the error of a normalisation in round numbers -/
lemma normErr_numbers (M : Machine P A v ε) {d : ℕ} (hd : d * ε ≤ 0.009) {σ : ℝ} (h0 : 0 ≤ σ) (hσ : σ ≤ 0.01) :
    sumErr A d σ 1 < 1 ∧ normErr A d σ 1 ≤ 2.1 * σ + 1.1 * (d + 1) * ε := by
  have hu := A.u_nonneg
  have hj := M.jax
  have h6 := M.small
  have hε := M.eps_nonneg
  have hg := growth_le hu hj h6 hd
  have hdε : (0:ℝ) ≤ d * ε := by positivity
  have hg0 : 0 ≤ (1 / (1 - A.u)) ^ d - 1 := G_pow_nonneg A d
  have hs : sumErr A d σ 1 ≤ σ + 1.05 * (d * ε) := by
    unfold sumErr
    have : ((1 / (1 - A.u)) ^ d - 1) * (1 + σ) ≤ 1.03 * d * ε * (1 + σ) := mul_le_mul_of_nonneg_right hg (by linarith)
    norm_num at *; nlinarith
  have hs0 : 0 ≤ sumErr A d σ 1 := sumErr_nonneg h0 zero_le_one
  have hs1 : sumErr A d σ 1 ≤ 0.02 := by norm_num at *; linarith
  refine ⟨by norm_num at *; linarith, ?_⟩
  unfold normErr
  have q : (σ + sumErr A d σ 1) / (1 - sumErr A d σ 1) ≤ 1.03 * (2 * σ + 1.05 * (d * ε)) := by
    rw [div_le_iff₀ (by norm_num at *; linarith)]
    have : (2 * σ + 1.05 * (d * ε)) * 0.98 ≤ (2 * σ + 1.05 * (d * ε)) * (1 - sumErr A d σ 1) :=
      mul_le_mul_of_nonneg_left (by norm_num at *; linarith) (by positivity)
    norm_num at *; nlinarith
  have q0 : 0 ≤ (σ + sumErr A d σ 1) / (1 - sumErr A d σ 1) := div_nonneg (by linarith) (by norm_num at *; linarith)
  have r : (1 + A.u) * ((σ + sumErr A d σ 1) / (1 - sumErr A d σ 1)) ≤ 1.001 * (1.03 * (2 * σ + 1.05 * (d * ε))) :=
    mul_le_mul (by norm_num at *; linarith) q q0 (by norm_num)
  have e : 2.1 * σ + 1.1 * (d + 1) * ε = 2.1 * σ + 1.1 * (d * ε) + 1.1 * ε := by ring
  rw [e]
  norm_num at *; linarith

/-- **Specification.** the sum of the exact kernel values, in units of the peak width: how well the ages sample the burst -/
noncomputable def burstSum (lgyr : Fin n → ℝ) (lgyr_peak lgyr_max : ℝ) : ℝ := ∑ i, twKernel ((lgyr i - lgyr_peak) / ((lgyr_max - lgyr_peak) / 3))

lemma pureburst_eq {lgyr : Fin n → ℝ} {a b : ℝ} (hab : a < b) (hS : 0 < burstSum lgyr a b) (i : Fin n) :
    Diffburst.pureburst_age_weights_from_params lgyr a b i = twKernel ((lgyr i - a) / ((b - a) / 3)) / ((b - a) / 3) /
      ∑ j, twKernel ((lgyr j - a) / ((b - a) / 3)) / ((b - a) / 3) := by
  have hD : 0 < b - a := sub_pos.2 hab
  unfold Diffburst.pureburst_age_weights_from_params Diffburst.zero_safe_normalize
  simp only [triweight_eq_kernel, Jnp.sum]
  have e1 : 0.5 * (a - (b - a) + b) = a := by norm_num; ring
  have e2 : (b - (a - (b - a))) / 6 = (b - a) / 3 := by ring
  rw [e1, e2, if_neg]
  rw [← Finset.sum_div, not_le]
  exact div_pos hS (by positivity)

lemma burst_l1 (M : Machine P A v ε) {d : ℕ} {lgyr lgyr' : Fin n → ℝ} {a b : ℝ} (hab : a < b) (hd : d * ε ≤ 0.009)
    (hx : ∀ i, |lgyr' i - lgyr i| ≤ ε * |lgyr i|) (hS : 0 < burstSum lgyr a b)
    (hσ : 73 * (ε * burstCond a b) * n / burstSum lgyr a b ≤ 0.01)
    {r : Fin n → ℝ} (hr : r ∈ Rounded.pureburst_age_weights_from_params P A d lgyr' a b) :
    ∑ i, |r i - Diffburst.pureburst_age_weights_from_params lgyr a b i| ≤
      2.1 * (73 * (ε * burstCond a b) * n / burstSum lgyr a b) + 1.1 * (d + 1) * ε := by
  obtain ⟨s, hs, lo, hlo, t, ht, x0, hx0, dl, hdl, h, hh, g, hg, tot, htot, hout⟩ := hr
  have hε := M.eps_nonneg
  have hD : 0 < b - a := sub_pos.2 hab
  have hC := one_le_burstCond hab
  obtain ⟨f1, f2⟩ := burst_frame M hab hs hlo ht hx0 hdl hh
  set w := (b - a) / 3 with hw
  have hw0 : 0 < w := by positivity
  set ρ := ε * burstCond a b with hρd
  have hρ0 : 0 ≤ ρ := by positivity
  set S := burstSum lgyr a b with hSd
  have hSn : S ≤ 35 / 96 * n := by
    rw [hSd]; unfold burstSum
    calc _ ≤ ∑ _i : Fin n, (35 / 96 : ℝ) := Finset.sum_le_sum fun i _ => twKernel_le _
      _ = 35 / 96 * n := by simp [mul_comm]
  have hρ : ρ ≤ 1 / 1000 := by
    rw [div_le_iff₀ hS] at hσ
    have hn : (0:ℝ) < n := by nlinarith
    have : 73 * ρ * n ≤ 0.01 * (35 / 96) * n := hσ.trans (by norm_num; linarith)
    have := le_of_mul_le_mul_right this hn
    norm_num at *; linarith
  have E : ∑ i, |g i - twKernel ((lgyr i - a) / w) / w| ≤ n * (73 * ρ / w) := by
    calc _ ≤ ∑ _i : Fin n, 73 * ρ / w := Finset.sum_le_sum fun i _ => burst_value M hab hρ f1 f2 (hx i) (hg i)
      _ = n * (73 * ρ / w) := by simp
  have hsum : ∑ i, twKernel ((lgyr i - a) / w) / w = S / w := by rw [← Finset.sum_div]; rfl
  have hσ0 : 0 ≤ 73 * ρ * n / S := by positivity
  obtain ⟨k1, k2⟩ := normErr_numbers M hd hσ0 hσ
  have hc : 0 < S / w := by positivity
  have eE : (n:ℝ) * (73 * ρ / w) = S / w * (73 * ρ * n / S) := by field_simp
  have hlt : sumErr A d (n * (73 * ρ / w)) (∑ i, twKernel ((lgyr i - a) / w) / w) < ∑ i, twKernel ((lgyr i - a) / w) / w := by
    rw [hsum, eE]
    have e : sumErr A d (S / w * (73 * ρ * n / S)) (S / w) = S / w * sumErr A d (73 * ρ * n / S) 1 := by unfold sumErr; ring
    rw [e]
    exact mul_lt_of_lt_one_right hc k1
  have h0 : ∀ i, 0 ≤ twKernel ((lgyr i - a) / w) / w := fun i => div_nonneg (twKernel_nonneg _) hw0.le
  have hpos : ¬ tot ≤ 0 := by
    have := (abs_le.1 (sum_err h0 E htot)).1
    rw [not_le]; linarith
  rw [if_neg hpos] at hout
  have fin := normalize_l1 h0 E htot hout hlt
  rw [hsum, eE, normErr_scale hc] at fin
  refine le_trans (le_of_eq ?_) (fin.trans k2)
  refine Finset.sum_congr rfl fun i _ => ?_
  rw [pureburst_eq hab hS i, ← hw, hsum]

/-- C137: **accuracy of the burst's age weights**, in the sum norm, for ages (machine numbers) of which at least one lies inside the burst: the
error is of the order of `ε` times the condition number of the burst times the number of ages, divided by the sum of the kernel over the ages. -/
theorem C137_pureburst (M : Machine P A v ε) {d : ℕ} {lgyr : Fin n → ℝ} {lgyr_peak lgyr_max : ℝ} (hlt : lgyr_peak < lgyr_max) (hd : d * ε ≤ 0.009)
    (hS : 0 < burstSum lgyr lgyr_peak lgyr_max)
    (hσ : 73 * (ε * burstCond lgyr_peak lgyr_max) * n / burstSum lgyr lgyr_peak lgyr_max ≤ 0.01)
    {r : Fin n → ℝ} (hr : r ∈ Rounded.pureburst_age_weights_from_params P A d lgyr lgyr_peak lgyr_max) :
    ∑ i, |r i - Diffburst.pureburst_age_weights_from_params lgyr lgyr_peak lgyr_max i| ≤
      2.1 * (73 * (ε * burstCond lgyr_peak lgyr_max) * n / burstSum lgyr lgyr_peak lgyr_max) + 1.1 * (d + 1) * ε :=
  burst_l1 M hlt hd (fun i => by rw [sub_self, abs_zero]; have := M.eps_nonneg; positivity) hS hσ hr

lemma pureburst_total {lgyr : Fin n → ℝ} {a b : ℝ} (hab : a < b) (hS : 0 < burstSum lgyr a b) :
    (∀ i, 0 ≤ Diffburst.pureburst_age_weights_from_params lgyr a b i) ∧ ∑ i, Diffburst.pureburst_age_weights_from_params lgyr a b i = 1 := by
  have hw0 : 0 < (b - a) / 3 := by have : 0 < b - a := sub_pos.2 hab
                                   positivity
  have h0 : ∀ i, 0 ≤ twKernel ((lgyr i - a) / ((b - a) / 3)) / ((b - a) / 3) := fun i => div_nonneg (twKernel_nonneg _) hw0.le
  constructor
  · intro i; rw [pureburst_eq hab hS]; exact div_nonneg (h0 i) (Finset.sum_nonneg fun j _ => h0 j)
  · simp_rw [pureburst_eq hab hS]
    rw [← Finset.sum_div, div_self]
    rw [← Finset.sum_div]; exact (div_pos hS hw0).ne'

set_option maxHeartbeats 1000000 in
lemma mix_l1 (M : Machine P A v ε) {lgf η W : ℝ} {b b' w out : Fin n → ℝ} (hf : lgf ≤ 0) (hb0 : ∀ i, 0 ≤ b i) (hb1 : ∑ i, b i = 1)
    (hη : ∑ i, |b' i - b i| ≤ η) (hη1 : η ≤ 0.1) (hW : ∑ i, |w i| ≤ W) (hout : out ∈ Rounded.mix A v lgf b' w) :
    ∑ i, |out i - (exp10 lgf * b i + (1 - exp10 lgf) * w i)| ≤ 1.01 * (exp10 lgf * η) + ε * (4 * exp10 lgf + 8 * W) := by
  obtain ⟨fb, hfb, p, hp, g, hg, q, hq, ho⟩ := hout
  have hε := M.eps_nonneg
  have h6 := M.small
  set F := exp10 lgf with hF
  have F0 : 0 < F := exp10_pos _
  have F1 : F ≤ 1 := by rw [hF]; exact Real.rpow_le_one_of_one_le_of_nonpos (by norm_num) hf
  have nf : NearE ε 1 F fb F := by
    refine ⟨le_of_eq (abs_of_pos F0), ?_⟩
    have : |fb - F| ≤ v * F := hfb
    refine this.trans (mul_le_mul_of_nonneg_right ?_ F0.le)
    rw [pow_one]; linarith [M.lib]
  have ng := ((NearE.refl (ε := ε) (x := 1) (M := 1) (by simp)).sub hε nf).rnd M.jax hg
  have hfbF : |fb - F| ≤ ε * F := by have : |fb - F| ≤ v * F := hfb
                                     exact this.trans (mul_le_mul_of_nonneg_right M.lib F0.le)
  have hfb1 : |fb| ≤ (1 + ε) * F := by
    have := abs_sub_abs_le_abs_sub fb F; rw [abs_of_pos F0] at this; linarith
  have point : ∀ i, |out i - (F * b i + (1 - F) * w i)| ≤ 1.001 * F * |b' i - b i| + 3.1 * ε * (F * b i) + 7.5 * ε * |w i| := by
    intro i
    have hp' : |p i - fb * b' i| ≤ ε * |fb * b' i| := (A.rel _ _ (hp i)).trans (mul_le_mul_of_nonneg_right M.jax (abs_nonneg _))
    have nq := (ng.mul hε (NearE.refl (ε := ε) (le_refl |w i|))).rnd M.jax (hq i)
    have hq' := M.near_bound (by norm_num) nq
    have hqa : |q i - (1 - F) * w i| ≤ 6.2 * ε * |w i| := by
      refine hq'.trans ?_
      have : 0 ≤ ε * |w i| := by positivity
      norm_num; nlinarith
    have ho' : |out i - (p i + q i)| ≤ ε * |p i + q i| := (A.rel _ _ (ho i)).trans (mul_le_mul_of_nonneg_right M.jax (abs_nonneg _))
    have hb' : |b' i| ≤ b i + |b' i - b i| := by
      have := abs_sub_abs_le_abs_sub (b' i) (b i); rw [abs_of_nonneg (hb0 i)] at this; linarith
    have hfbb : |fb * b' i| ≤ (1 + ε) * F * (b i + |b' i - b i|) := by
      rw [abs_mul]; exact mul_le_mul hfb1 hb' (abs_nonneg _) (by positivity)
    have t1 : |fb * b' i - F * b i| ≤ ε * F * (b i + |b' i - b i|) + F * |b' i - b i| := by
      have e : fb * b' i - F * b i = (fb - F) * b' i + F * (b' i - b i) := by ring
      rw [e]; refine (abs_add_le _ _).trans ?_
      rw [abs_mul, abs_mul, abs_of_pos F0]
      have := mul_le_mul hfbF hb' (abs_nonneg _) (show 0 ≤ ε * F by positivity)
      linarith
    set β := F * b i with hβ
    set δ := F * |b' i - b i| with hδ
    have hβ0 : 0 ≤ β := mul_nonneg F0.le (hb0 i)
    have hδ0 : 0 ≤ δ := by positivity
    set ω := |w i| with hω
    have hω0 : 0 ≤ ω := abs_nonneg _
    have e1 : (1 + ε) * F * (b i + |b' i - b i|) = (1 + ε) * (β + δ) := by rw [hβ, hδ]; ring
    have e2 : ε * F * (b i + |b' i - b i|) + F * |b' i - b i| = ε * (β + δ) + δ := by rw [hβ, hδ]; ring
    rw [e1] at hfbb
    rw [e2] at t1
    have pB : |p i - β| ≤ ε * ((1 + ε) * (β + δ)) + (ε * (β + δ) + δ) := by
      have t := abs_add_le (p i - fb * b' i) (fb * b' i - β)
      rw [sub_add_sub_cancel] at t
      have := mul_le_mul_of_nonneg_left hfbb hε
      linarith
    have s1 : ε * ((1 + ε) * (β + δ)) ≤ 1.001 * (ε * (β + δ)) := by
      have : 0 ≤ ε * (β + δ) := by positivity
      norm_num at *; nlinarith
    have pA : |p i| ≤ 1.001 * (β + δ) := by
      have t := abs_sub_abs_le_abs_sub (p i) β
      rw [abs_of_nonneg hβ0] at t
      have : ε * (β + δ) ≤ 1e-6 * (β + δ) := mul_le_mul_of_nonneg_right h6 (by positivity)
      norm_num at *; linarith
    have qA : |q i| ≤ 1.001 * ω := by
      have t := abs_sub_abs_le_abs_sub (q i) ((1 - F) * w i)
      rw [abs_mul, abs_of_nonneg (by linarith : 0 ≤ 1 - F), ← hω] at t
      have t2 : (1 - F) * ω ≤ ω := mul_le_of_le_one_left hω0 (by linarith)
      have : ε * ω ≤ 1e-6 * ω := mul_le_mul_of_nonneg_right h6 hω0
      norm_num at *; linarith
    have t := abs_add_le (out i - (p i + q i)) ((p i - β) + (q i - (1 - F) * w i))
    rw [show out i - (p i + q i) + ((p i - β) + (q i - (1 - F) * w i)) = out i - (β + (1 - F) * w i) by ring] at t
    have t2 := abs_add_le (p i - β) (q i - (1 - F) * w i)
    have t3 : ε * |p i + q i| ≤ ε * (1.001 * (β + δ) + 1.001 * ω) := mul_le_mul_of_nonneg_left ((abs_add_le _ _).trans (add_le_add pA qA)) hε
    have hεδ : ε * δ ≤ 1e-6 * δ := mul_le_mul_of_nonneg_right h6 hδ0
    have hεβ : 0 ≤ ε * β := by positivity
    have hεω : 0 ≤ ε * ω := by positivity
    have g1 : 1.001 * F * |b' i - b i| = 1.001 * δ := by rw [hδ]; ring
    have g2 : 3.1 * ε * β = 3.1 * (ε * β) := by ring
    have g3 : 7.5 * ε * ω = 7.5 * (ε * ω) := by ring
    rw [g1, g2, g3]
    have g4 : ε * (1.001 * (β + δ) + 1.001 * ω) = 1.001 * (ε * β) + 1.001 * (ε * δ) + 1.001 * (ε * ω) := by ring
    have g5 : ε * (β + δ) = ε * β + ε * δ := by ring
    rw [g4] at t3
    rw [g5] at pB s1
    have g6 : 6.2 * ε * ω = 6.2 * (ε * ω) := by ring
    rw [g6] at hqa
    norm_num at *
    linarith
  calc _ ≤ ∑ i, (1.001 * F * |b' i - b i| + 3.1 * ε * (F * b i) + 7.5 * ε * |w i|) := Finset.sum_le_sum fun i _ => point i
    _ = 1.001 * F * ∑ i, |b' i - b i| + 3.1 * ε * F * ∑ i, b i + 7.5 * ε * ∑ i, |w i| := by
      rw [Finset.sum_add_distrib, Finset.sum_add_distrib, Finset.mul_sum, Finset.mul_sum, Finset.mul_sum]
      congr 2
      exact Finset.sum_congr rfl fun i _ => by ring
    _ ≤ 1.01 * (F * η) + ε * (4 * F + 8 * W) := by
      rw [hb1]
      have a1 := mul_le_mul_of_nonneg_left hη F0.le
      have a2 := mul_le_mul_of_nonneg_left hW hε
      have a3 : 0 ≤ ∑ i, |b' i - b i| := Finset.sum_nonneg fun i _ => abs_nonneg _
      have a4 : 0 ≤ F * η := mul_nonneg F0.le (a3.trans hη)
      have a5 : 0 ≤ ε * F := by positivity
      have a6 : 0 ≤ ε * W := mul_nonneg hε ((Finset.sum_nonneg fun i _ => abs_nonneg _).trans hW)
      norm_num
      nlinarith

/-- C137: **accuracy of the bursty age weights**, in the sum norm: the error of the burst enters in proportion to the burst's mass fraction; the
smooth weights are machine numbers of total size at most `W`. -/
theorem C137_bursty (M : Machine P A v ε) {d : ℕ} {p : Diffburst.BurstParams} {w ages : Fin n → ℝ} {W : ℝ} (hlt : p.lgyr_peak < p.lgyr_max)
    (hf : p.lgfburst ≤ 0) (hW : ∑ i, |w i| ≤ W) (hd : d * ε ≤ 0.009) (hS : 0 < burstSum (fun i => ages i + 9.0) p.lgyr_peak p.lgyr_max)
    (hσ : 73 * (ε * burstCond p.lgyr_peak p.lgyr_max) * n / burstSum (fun i => ages i + 9.0) p.lgyr_peak p.lgyr_max ≤ 0.01)
    {r : Fin n → ℝ} (hr : r ∈ Rounded.calc_bursty_age_weights P A v d p w ages) :
    ∑ i, |r i - Diffburst.calc_bursty_age_weights p w ages i| ≤
      1.01 * (10 ^ p.lgfburst * (2.1 * (73 * (ε * burstCond p.lgyr_peak p.lgyr_max) * n / burstSum (fun i => ages i + 9.0) p.lgyr_peak p.lgyr_max)
        + 1.1 * (d + 1) * ε)) + ε * (4 * 10 ^ p.lgfburst + 8 * W) := by
  obtain ⟨x, hx, b', hb', hr⟩ := hr
  have hε := M.eps_nonneg
  have h6 := M.small
  have l1 := burst_l1 M (lgyr := fun i => ages i + 9.0) hlt hd (fun i => (A.rel _ _ (hx i)).trans (mul_le_mul_of_nonneg_right M.jax (abs_nonneg _)))
    hS hσ hb'
  obtain ⟨t0, t1⟩ := pureburst_total hlt hS
  refine mix_l1 M hf t0 t1 l1 ?_ hW hr
  have : 1.1 * ((d:ℝ) + 1) * ε = 1.1 * (d * ε) + 1.1 * ε := by ring
  rw [this]
  norm_num at *; linarith

end Dsps.Props
