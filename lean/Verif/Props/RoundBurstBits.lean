import Verif.Props.RoundBurst
import Verif.Props.RoundMzrCases

/-! C137 in numbers (double precision); C138: age weights of bursts in round-to-nearest arithmetic. -/
namespace Dsps.Props
open Jnp Fl Spec Dsps.Lemmas

variable {P A : Arith} {v ε : ℝ} {n : ℕ}

/-- **Specification.** burst parameters within the bounds of `diffburst.py` (with room for rounding): peak between 10^5 and 10^8 yr, end between
ten times later and 10^9 yr -/
def BurstBox (lgyr_peak lgyr_max : ℝ) : Prop := 5 ≤ lgyr_peak ∧ lgyr_peak + 0.99 ≤ lgyr_max ∧ lgyr_max ≤ 9

/-- **Specification.** the ages sample the burst: one of them lies within half the support around the peak -/
def Samples (lgyr : Fin n → ℝ) (lgyr_peak lgyr_max : ℝ) : Prop := ∃ i, |lgyr i - lgyr_peak| ≤ (lgyr_max - lgyr_peak) / 2

lemma burstSum_ge {lgyr : Fin n → ℝ} {a b : ℝ} (hab : a < b) (h : Samples lgyr a b) : 0.15 ≤ burstSum lgyr a b := by
  obtain ⟨i, hi⟩ := h
  have hD : 0 < b - a := sub_pos.2 hab
  have hz : |(lgyr i - a) / ((b - a) / 3)| ≤ 3 / 2 := by
    rw [abs_div, abs_of_pos (show 0 < (b - a) / 3 by positivity), div_le_iff₀ (by positivity)]; linarith
  have hk : 0.15 ≤ twKernel ((lgyr i - a) / ((b - a) / 3)) := by
    set z := (lgyr i - a) / ((b - a) / 3)
    rw [twKernel_in (hz.trans (by norm_num))]
    have h1 : 3 / 4 ≤ 1 - (z / 3) ^ 2 := by
      have := sq_abs z
      nlinarith [abs_nonneg z]
    have h2 : (3 / 4 : ℝ) ^ 3 ≤ (1 - (z / 3) ^ 2) ^ 3 := pow_le_pow_left₀ (by norm_num) h1 3
    norm_num at h2 ⊢; linarith
  exact hk.trans (Finset.single_le_sum (f := fun j => twKernel ((lgyr j - a) / ((b - a) / 3))) (fun j _ => twKernel_nonneg _) (Finset.mem_univ i))

lemma burstCond_le {a b : ℝ} (h : BurstBox a b) : burstCond a b ≤ 18.2 := by
  obtain ⟨h1, h2, h3⟩ := h
  unfold burstCond
  norm_num at h2
  rw [abs_of_pos (by linarith : 0 < a), abs_of_pos (by linarith : 0 < b), div_le_iff₀ (by linarith)]
  norm_num; linarith

lemma burst_sigma {lgyr : Fin n → ℝ} {a b : ℝ} (h : BurstBox a b) (hs : Samples lgyr a b) :
    73 * ((2:ℝ) ^ (-50:ℤ) * burstCond a b) * n / burstSum lgyr a b ≤ 7.9e-12 * n := by
  have hab : a < b := by have := h.2.1; norm_num at this; linarith
  have hS := burstSum_ge hab hs
  have hC := burstCond_le h
  have hC1 := one_le_burstCond hab
  rw [div_le_iff₀ (lt_of_lt_of_le (by norm_num) hS)]
  have q1 : 73 * ((2:ℝ) ^ (-50:ℤ) * burstCond a b) ≤ 73 * ((2:ℝ) ^ (-50:ℤ) * 18.2) := by gcongr
  have q2 : 73 * ((2:ℝ) ^ (-50:ℤ) * 18.2) ≤ 7.9e-12 * (0.15:ℝ) := by norm_num
  have hn : (0:ℝ) ≤ n := by positivity
  calc _ ≤ 7.9e-12 * (0.15:ℝ) * n := mul_le_mul_of_nonneg_right (q1.trans q2) hn
    _ ≤ 7.9e-12 * burstSum lgyr a b * n := by gcongr
    _ = _ := by ring

/-- C137: **in double precision** the age weights of a burst with parameters within their bounds, for up to a million ages that sample the
burst, are within `1.8e-11` per age (in total) of the exact ones. -/
theorem C137_pureburst_float64 (H : Float64 P A v) {d : ℕ} {lgyr : Fin n → ℝ} {lgyr_peak lgyr_max : ℝ} (hb : BurstBox lgyr_peak lgyr_max)
    (hs : Samples lgyr lgyr_peak lgyr_max) (hn : n ≤ 1000000) (hd : d ≤ n) {r : Fin n → ℝ}
    (hr : r ∈ Rounded.pureburst_age_weights_from_params P A d lgyr lgyr_peak lgyr_max) :
    ∑ i, |r i - Diffburst.pureburst_age_weights_from_params lgyr lgyr_peak lgyr_max i| ≤ 1.8e-11 * n := by
  have hab : lgyr_peak < lgyr_max := by have := hb.2.1; norm_num at this; linarith
  have hS := burstSum_ge hab hs
  have hσ := burst_sigma hb hs
  have hn' : (n:ℝ) ≤ 1000000 := by exact_mod_cast hn
  have hd' : (d:ℝ) ≤ n := by exact_mod_cast hd
  have hn1 : (1:ℝ) ≤ n := by
    obtain ⟨i, -⟩ := hs; exact_mod_cast i.pos
  refine (C137_pureburst H.machine hab ?_ (lt_of_lt_of_le (by norm_num) hS) (hσ.trans (by norm_num; linarith)) hr).trans ?_
  · norm_num; linarith
  · norm_num at hσ ⊢; linarith

/-- C137: **in double precision** the bursty age weights, for smooth weights of total size at most 1.01, are within `1.9e-11` per age (in total) of
the exact ones, and sum to one as precisely as the smooth weights do. -/
theorem C137_bursty_float64 (H : Float64 P A v) {d : ℕ} {p : Diffburst.BurstParams} {w ages : Fin n → ℝ} (hb : BurstBox p.lgyr_peak p.lgyr_max)
    (hs : Samples (fun i => ages i + 9.0) p.lgyr_peak p.lgyr_max) (hf : p.lgfburst ≤ 0) (hw : ∑ i, |w i| ≤ 1.01) (hn : n ≤ 1000000) (hd : d ≤ n)
    {r : Fin n → ℝ} (hr : r ∈ Rounded.calc_bursty_age_weights P A v d p w ages) :
    ∑ i, |r i - Diffburst.calc_bursty_age_weights p w ages i| ≤ 1.9e-11 * n ∧
    |∑ i, r i - 1| ≤ 1.9e-11 * n + |∑ i, w i - 1| := by
  have hab : p.lgyr_peak < p.lgyr_max := by have := hb.2.1; norm_num at this; linarith
  have hS := burstSum_ge hab hs
  have hS0 : 0 < burstSum (fun i => ages i + 9.0) p.lgyr_peak p.lgyr_max := lt_of_lt_of_le (by norm_num) hS
  have hσ := burst_sigma hb hs
  have hn' : (n:ℝ) ≤ 1000000 := by exact_mod_cast hn
  have hd' : (d:ℝ) ≤ n := by exact_mod_cast hd
  have hn1 : (1:ℝ) ≤ n := by
    obtain ⟨i, -⟩ := hs; exact_mod_cast i.pos
  have F0 : (0:ℝ) < 10 ^ p.lgfburst := by positivity
  have F1 : (10:ℝ) ^ p.lgfburst ≤ 1 := Real.rpow_le_one_of_one_le_of_nonpos (by norm_num) hf
  have first : ∑ i, |r i - Diffburst.calc_bursty_age_weights p w ages i| ≤ 1.9e-11 * n := by
    refine (C137_bursty H.machine hab hf hw ?_ hS0 (hσ.trans (by norm_num; linarith)) hr).trans ?_
    · norm_num; linarith
    · have q : 2.1 * (73 * ((2:ℝ) ^ (-50:ℤ) * burstCond p.lgyr_peak p.lgyr_max) * n / burstSum (fun i => ages i + 9.0) p.lgyr_peak p.lgyr_max)
          + 1.1 * (d + 1) * (2:ℝ) ^ (-50:ℤ) ≤ 1.8e-11 * n := by norm_num at hσ ⊢; linarith
      have q2 : 10 ^ p.lgfburst * (2.1 * (73 * ((2:ℝ) ^ (-50:ℤ) * burstCond p.lgyr_peak p.lgyr_max) * n
          / burstSum (fun i => ages i + 9.0) p.lgyr_peak p.lgyr_max) + 1.1 * (d + 1) * (2:ℝ) ^ (-50:ℤ)) ≤ 1 * (1.8e-11 * n) :=
        mul_le_mul F1 q (by have := one_le_burstCond hab; positivity) (by norm_num)
      have q3 : (2:ℝ) ^ (-50:ℤ) * (4 * 10 ^ p.lgfburst + 8 * 1.01) ≤ (2:ℝ) ^ (-50:ℤ) * (4 * 1 + 8 * 1.01) := by gcongr
      have q4 : (2:ℝ) ^ (-50:ℤ) * (4 * 1 + 8 * 1.01) ≤ (1e-13:ℝ) := by norm_num
      norm_num at q2 q3 q4 ⊢
      linarith
  refine ⟨first, ?_⟩
  obtain ⟨-, t1⟩ := pureburst_total (lgyr := fun i => ages i + 9.0) hab hS0
  have ex : ∑ i, Diffburst.calc_bursty_age_weights p w ages i - 1 = (1 - 10 ^ p.lgfburst) * (∑ i, w i - 1) := by
    unfold Diffburst.calc_bursty_age_weights
    rw [Finset.sum_add_distrib, ← Finset.mul_sum, ← Finset.mul_sum, t1]
    show Jnp.exp10 p.lgfburst * 1 + (1 - Jnp.exp10 p.lgfburst) * _ - 1 = _
    unfold Jnp.exp10
    ring
  have t := abs_add_le (∑ i, r i - ∑ i, Diffburst.calc_bursty_age_weights p w ages i) (∑ i, Diffburst.calc_bursty_age_weights p w ages i - 1)
  rw [sub_add_sub_cancel] at t
  have t2 : |∑ i, r i - ∑ i, Diffburst.calc_bursty_age_weights p w ages i| ≤ 1.9e-11 * n := by
    rw [← Finset.sum_sub_distrib]; exact (Finset.abs_sum_le_sum_abs _ _).trans first
  have t3 : |(1 - (10:ℝ) ^ p.lgfburst) * (∑ i, w i - 1)| ≤ |∑ i, w i - 1| := by
    rw [abs_mul, abs_of_nonneg (by linarith : 0 ≤ 1 - (10:ℝ) ^ p.lgfburst)]
    exact mul_le_of_le_one_left (abs_nonneg _) (by linarith)
  rw [ex] at t
  linarith

/-! ## C138: round to nearest -/
section nearest
variable {p : ℕ}

lemma nearest_pos' (hp : 1 ≤ p) {x : ℝ} (hx : 0 < x) : 0 < nearest p x := by
  have h := nearest_rel hp x
  rw [abs_of_pos hx] at h
  have h1 : ((1:ℝ) / 2) ^ p ≤ 1 / 2 := by
    calc ((1:ℝ) / 2) ^ p ≤ (1 / 2) ^ 1 := pow_le_pow_of_le_one (by norm_num) (by norm_num) hp
      _ = 1 / 2 := by norm_num
  have := (abs_le.1 h).1
  nlinarith

lemma nearest_neg_one (hp : 1 ≤ p) : nearest p (-1) = -1 := by
  refine nearest_exact (-1) 0 (by norm_num) ?_
  have : (2:ℝ) ^ 1 ≤ 2 ^ p := pow_le_pow_right₀ (by norm_num) hp
  norm_num at this ⊢; linarith

lemma intPow_nonneg (hp : 1 ≤ p) {z r : ℝ} {k : ℕ} (hz : 0 ≤ z) (h : Rounded.IntPow (binary p hp) z k r) : 0 ≤ r := by
  induction h with
  | one => exact hz
  | mul _ _ hr ih1 ih2 =>
    have : _ = nearest p _ := hr
    rw [this]; exact nearest_nonneg hp (mul_nonneg ih1 ih2)

/-- a literal of a non-negative number is non-negative -/
lemma lit_nonneg (hp : 1 ≤ p) {x r : ℝ} (hx : 0 ≤ x) (h : r ∈ Rounded.lit P (binary p hp) x) : 0 ≤ r := by
  obtain ⟨y, hy, hr⟩ := h
  have : r = nearest p y := hr
  rw [this]
  refine nearest_nonneg hp ?_
  have h1 := (abs_le.1 (P.rel _ _ hy)).1
  rw [abs_of_nonneg hx] at h1
  have := P.u_lt_one
  nlinarith

/-- the kernel is non-negative and a machine number -/
lemma triweight_nonneg (hp : 1 ≤ p) {x m h r : ℝ} (hh : 0 < h) (hr : r ∈ Rounded.triweight_gaussian P (binary p hp) x m h) :
    0 ≤ r ∧ nearest p r = r := by
  obtain ⟨d, hd, z, hz, q, rfl, q2, hq2, o, rfl, o3, ho3, c, hc, t, rfl, val, rfl, rfl⟩ := hr
  split_ifs with cnd
  · exact ⟨le_rfl, nearest_zero p⟩
  · refine ⟨?_, nearest_idem hp _⟩
    push Not at cnd
    have q1 : nearest p (z / 3) ≤ 1 := by
      have := nearest_mono hp (show z / 3 ≤ 1 by linarith [cnd.2]); rwa [nearest_one hp] at this
    have q1' : -1 ≤ nearest p (z / 3) := by
      have := nearest_mono hp (show -1 ≤ z / 3 by linarith [cnd.1]); rwa [nearest_neg_one hp] at this
    have h2 : q2 = nearest p (nearest p (z / 3) * nearest p (z / 3)) := intPow_two hq2
    have h21 : q2 ≤ 1 := by
      have := nearest_mono hp (show nearest p (z / 3) * nearest p (z / 3) ≤ 1 by nlinarith); rwa [nearest_one hp, ← h2] at this
    have o0 : 0 ≤ nearest p (1 - q2) := nearest_nonneg hp (by linarith)
    have o30 := intPow_nonneg hp o0 ho3
    exact nearest_nonneg hp (div_nonneg (nearest_nonneg hp (mul_nonneg (lit_nonneg hp (by norm_num) hc) o30)) hh.le)

/-- the machine's width of a burst is positive -/
lemma width_pos (hp : 1 ≤ p) {a b : ℝ} (ha : nearest p a = a) (hab : a < b) :
    0 < nearest p (nearest p (b - nearest p (a - nearest p (b - a))) / 6) := by
  have s0 := nearest_pos' hp (sub_pos.2 hab)
  have lo : nearest p (a - nearest p (b - a)) ≤ a := by
    have := nearest_mono hp (show a - nearest p (b - a) ≤ a by linarith); rwa [ha] at this
  exact nearest_pos' hp (div_pos (nearest_pos' hp (by linarith)) (by norm_num))

/-- a sum of non-negative machine numbers is at least as large as each of them, in whatever order it is computed -/
lemma tree_ge (hp : 1 ≤ p) {ι : Type*} [DecidableEq ι] {x : ι → ℝ} (h0 : ∀ i, 0 ≤ x i) (hm : ∀ i, nearest p (x i) = x i) (t : SumTree ι) :
    ∀ {s : ℝ}, s ∈ t.eval (binary p hp) x → 0 ≤ s ∧ ∀ i, 1 ≤ t.count i → x i ≤ s := by
  induction t with
  | zero => intro s hs; rw [show s = 0 from hs]; exact ⟨le_rfl, fun i h => by simp [SumTree.count] at h⟩
  | leaf j =>
    intro s hs; rw [show s = x j from hs]
    refine ⟨h0 j, fun i h => ?_⟩
    unfold SumTree.count at h
    split_ifs at h with e
    · rw [e]
    · omega
  | node l r ihl ihr =>
    rintro s ⟨a, ha, b, hb, hs⟩
    rw [show s = nearest p (a + b) from hs]
    obtain ⟨a0, ha'⟩ := ihl ha
    obtain ⟨b0, hb'⟩ := ihr hb
    refine ⟨nearest_nonneg hp (by linarith), fun i h => ?_⟩
    unfold SumTree.count at h
    have key : x i ≤ a + b := by
      rcases Nat.lt_or_ge 0 (l.count i) with c | c
      · linarith [ha' i c]
      · linarith [hb' i (by omega)]
    have := nearest_mono hp key
    rwa [hm] at this

lemma sum_ge (hp : 1 ≤ p) {d : ℕ} {x : Fin n → ℝ} (h0 : ∀ i, 0 ≤ x i) (hm : ∀ i, nearest p (x i) = x i) {s : ℝ} (hs : s ∈ (binary p hp).sum d x) (i : Fin n) :
    x i ≤ s := by
  obtain ⟨t, ht, -, he⟩ := hs
  exact (tree_ge hp h0 hm t he).2 i (ht i).ge

/-- C138: **burst age weights are between zero and one** in round-to-nearest arithmetic with any number of bits, for every array of ages and every
order of the sum, and **they sum to one up to the rounding of the normalisation, or all of them are exactly zero** (when no age lies inside the
burst). -/
theorem C138_pureburst (hp : 20 ≤ p) (hP : P.u ≤ (1 / 2) ^ p) {d : ℕ} {lgyr : Fin n → ℝ} {lgyr_peak lgyr_max : ℝ}
    (hm : nearest p lgyr_peak = lgyr_peak) (hlt : lgyr_peak < lgyr_max) (hd : d * (1 / 2 : ℝ) ^ p ≤ 0.009) {r : Fin n → ℝ}
    (hr : r ∈ Rounded.pureburst_age_weights_from_params P (binary p (le_trans (by norm_num) hp)) d lgyr lgyr_peak lgyr_max) :
    (∀ i, 0 ≤ r i ∧ r i ≤ 1) ∧ (|∑ i, r i - 1| ≤ 1.1 * (d + 1) * (1 / 2) ^ p ∨ ∀ i, r i = 0) := by
  have hp1 : 1 ≤ p := le_trans (by norm_num) hp
  obtain ⟨s, rfl, lo, rfl, t, rfl, x0, rfl, dl, rfl, h, rfl, g, hg, tot, htot, hout⟩ := hr
  have hw := width_pos hp1 hm hlt
  have g0 : ∀ i, 0 ≤ g i := fun i => (triweight_nonneg hp1 hw (hg i)).1
  have gm : ∀ i, nearest p (g i) = g i := fun i => (triweight_nonneg hp1 hw (hg i)).2
  have ge := sum_ge hp1 g0 gm htot
  by_cases c : tot ≤ 0
  · have gz : ∀ i, g i = 0 := fun i => le_antisymm ((ge i).trans c) (g0 i)
    rw [if_pos c] at hout
    have rz : ∀ i, r i = 0 := fun i => by
      have : r i = nearest p (g i / 1) := hout i
      rw [this, gz, zero_div, nearest_zero]
    exact ⟨fun i => by rw [rz]; norm_num, Or.inr rz⟩
  · rw [if_neg c] at hout
    push Not at c
    refine ⟨fun i => ?_, Or.inl ?_⟩
    · have e : r i = nearest p (g i / tot) := hout i
      rw [e]
      refine ⟨nearest_nonneg hp1 (div_nonneg (g0 i) c.le), ?_⟩
      have := nearest_mono hp1 (show g i / tot ≤ 1 by rw [div_le_one c]; exact ge i); rwa [nearest_one hp1] at this
    · have hsm : ((1:ℝ) / 2) ^ p ≤ 1e-6 := by
        calc ((1:ℝ) / 2) ^ p ≤ (1 / 2) ^ 20 := pow_le_pow_of_le_one (by norm_num) (by norm_num) hp
          _ ≤ 1e-6 := by norm_num
      have M : Machine P (binary p hp1) 0 ((1 / 2) ^ p) := ⟨hP, le_rfl, le_rfl, by positivity, hsm⟩
      obtain ⟨k1, k2⟩ := normErr_numbers M hd (σ := 0) le_rfl (by norm_num)
      have hE : ∑ i, |g i - g i| ≤ 0 := by simp
      have hG : 0 < ∑ i, g i := by
        by_contra hc
        push Not at hc
        have z : ∀ i, g i = 0 := fun i => by
          have := (Finset.sum_eq_zero_iff_of_nonneg (fun i _ => g0 i)).1 (le_antisymm hc (Finset.sum_nonneg fun i _ => g0 i)) i (Finset.mem_univ i)
          exact this
        have h1 := Lemmas.sum_err g0 hE htot
        have e : sumErr (binary p hp1) d 0 (∑ i, g i) = 0 := by unfold sumErr; simp [z]
        rw [e] at h1
        simp only [z, Finset.sum_const_zero, sub_zero] at h1
        exact absurd (abs_nonpos_iff.1 h1) c.ne'
      have sc := normErr_scale (A := binary p hp1) (d := d) (E := 0) hG
      rw [mul_zero] at sc
      have hlt' : sumErr (binary p hp1) d 0 (∑ i, g i) < ∑ i, g i := by
        have e : sumErr (binary p hp1) d 0 (∑ i, g i) = (∑ i, g i) * sumErr (binary p hp1) d 0 1 := by unfold sumErr; ring
        rw [e]; exact mul_lt_of_lt_one_right hG k1
      have fin := normalize_l1 g0 hE htot hout hlt'
      rw [sc] at fin
      have t1 : ∑ i, r i - 1 = ∑ i, (r i - g i / ∑ j, g j) := by
        rw [Finset.sum_sub_distrib, ← Finset.sum_div, div_self hG.ne']
      rw [t1]
      refine (Finset.abs_sum_le_sum_abs _ _).trans (fin.trans (k2.trans (le_of_eq (by ring))))

/-- C138: bursty age weights are non-negative in round-to-nearest arithmetic, for non-negative smooth weights and a burst fraction of at most one half.
(The library's power function has a relative error of at most `v ≤ 1/2`.) -/
theorem C138_bursty_nonneg (hp : 20 ≤ p) (hP : P.u ≤ (1 / 2) ^ p) {v : ℝ} (hv : v ≤ 1 / 2) {d : ℕ} {q : Diffburst.BurstParams} {w ages : Fin n → ℝ}
    (hm : nearest p q.lgyr_peak = q.lgyr_peak) (hlt : q.lgyr_peak < q.lgyr_max) (hf : q.lgfburst ≤ -1) (hd : d * (1 / 2 : ℝ) ^ p ≤ 0.009)
    (hw : ∀ i, 0 ≤ w i) {r : Fin n → ℝ}
    (hr : r ∈ Rounded.calc_bursty_age_weights P (binary p (le_trans (by norm_num) hp)) v d q w ages) (i : Fin n) : 0 ≤ r i := by
  have hp1 : 1 ≤ p := le_trans (by norm_num) hp
  obtain ⟨x, hx, b, hb, fb, hfb, a, ha, g, rfl, c, hc, ho⟩ := hr
  have b0 := ((C138_pureburst hp hP hm hlt hd hb).1 i).1
  have F0 : 0 < exp10 q.lgfburst := exp10_pos _
  have F1 : exp10 q.lgfburst ≤ 1 / 10 := by
    unfold exp10
    calc (10:ℝ) ^ q.lgfburst ≤ 10 ^ (-1:ℝ) := Real.rpow_le_rpow_of_exponent_le (by norm_num) hf
      _ = 1 / 10 := by rw [Real.rpow_neg_one]; norm_num
  have hfb' : |fb - exp10 q.lgfburst| ≤ v * exp10 q.lgfburst := hfb
  have f0 : 0 ≤ fb := by nlinarith [(abs_le.1 hfb').1]
  have f1 : fb ≤ 1 := by nlinarith [(abs_le.1 hfb').2]
  rw [show r i = nearest p (a i + c i) from ho i, show a i = nearest p (fb * b i) from ha i, show c i = nearest p (nearest p (1 - fb) * w i) from hc i]
  exact nearest_nonneg hp1 (add_nonneg (nearest_nonneg hp1 (mul_nonneg f0 b0)) (nearest_nonneg hp1 (mul_nonneg (nearest_nonneg hp1 (by linarith)) (hw i))))

/-! ### the burst's parameters -/

lemma small_exact (hp : 5 ≤ p) (m : ℤ) (hm : |(m:ℝ)| < 32) : nearest p m = m := by
  refine nearest_exact m 0 (by simp) (hm.trans_le ?_)
  calc (32:ℝ) = 2 ^ 5 := by norm_num
    _ ≤ 2 ^ p := pow_le_pow_right₀ (by norm_num) hp

/-- the end of the burst: `9 - lo` is computed exactly -/
lemma nine_sub (hp : 5 ≤ p) {lo : ℝ} (hm : nearest p lo = lo) (h6 : 6 ≤ lo) (h9 : lo ≤ 9) : nearest p (9 - lo) = 9 - lo := by
  have h0 : 0 < lo := by linarith
  have hl : 2 ≤ Int.log 2 |lo| := by
    rw [abs_of_pos h0, ← Int.zpow_le_iff_le_log (by norm_num) h0]; norm_num; linarith
  obtain ⟨k, hk⟩ : ∃ k : ℕ, Int.log 2 |lo| = 2 + k := ⟨(Int.log 2 |lo| - 2).toNat, by omega⟩
  have e : quantum p lo = 2 ^ k * (2:ℝ) ^ (3 - p : ℤ) := by
    rw [quantum, hk, ← zpow_natCast, ← zpow_add₀ (by norm_num)]; congr 1; ring
  have e9 : (9:ℝ) = (9 * 2 ^ (p - 3) : ℤ) * (2:ℝ) ^ (3 - p : ℤ) := by
    push_cast
    rw [← zpow_natCast, mul_assoc, ← zpow_add₀ (by norm_num)]
    rw [show ((p - 3 : ℕ) : ℤ) + (3 - p) = 0 by omega]; norm_num
  have hlo : lo = (round (lo / quantum p lo) * 2 ^ k : ℤ) * (2:ℝ) ^ (3 - p : ℤ) := by
    conv_lhs => rw [← hm, nearest]
    push_cast
    rw [mul_assoc, ← e]
  have hx : 9 - lo = ((9 * 2 ^ (p - 3) - round (lo / quantum p lo) * 2 ^ k : ℤ) : ℝ) * (2:ℝ) ^ (3 - p : ℤ) := by
    rw [Int.cast_sub, sub_mul, ← e9, ← hlo]
  refine nearest_exact _ _ hx ?_
  have hq : (0:ℝ) < (2:ℝ) ^ (3 - p : ℤ) := by positivity
  have : |((9 * 2 ^ (p - 3) - round (lo / quantum p lo) * 2 ^ k : ℤ) : ℝ)| * (2:ℝ) ^ (3 - p : ℤ) ≤ 3 := by
    
    have e1 : |((9 * 2 ^ (p - 3) - round (lo / quantum p lo) * 2 ^ k : ℤ) : ℝ)| * (2:ℝ) ^ (3 - p : ℤ) = |9 - lo| := by
      rw [hx, abs_mul, abs_of_pos hq]
    rw [e1, abs_of_nonneg (by linarith)]; linarith
  have h8 : (2:ℝ) ^ p * (2:ℝ) ^ (3 - p : ℤ) = 8 := by
    rw [← zpow_natCast, ← zpow_add₀ (by norm_num), show (p:ℤ) + (3 - p) = 3 by ring]; norm_num
  by_contra hc
  push Not at hc
  have := mul_le_mul_of_nonneg_right hc hq.le
  linarith

/-- C138: **the bounds of the burst parameters hold in floating point**: whatever the unbounded parameters, in round-to-nearest arithmetic with at least
20 bits the peak is between `10^5` and `10^8` yr, the mass fraction between `10^-8` and `10^-1`, the end at most `10^9` yr and not before the machine's
`lgyr_peak + 1`, hence after the peak; and all three are machine numbers. -/
theorem C138_params_in_bounds (hp : 20 ≤ p) {v : ℝ} (hv : v ≤ 1) {u : Diffburst.BurstUParams} {q : Diffburst.BurstParams}
    (hq : q ∈ Rounded.get_params_from_u_params P (binary p (le_trans (by norm_num) hp)) (Rounded.logistic_xla (binary p (le_trans (by norm_num) hp)) v) u) :
    (-8 ≤ q.lgfburst ∧ q.lgfburst ≤ -1) ∧ (5 ≤ q.lgyr_peak ∧ q.lgyr_peak ≤ 8) ∧
    (nearest p (q.lgyr_peak + 1) ≤ q.lgyr_max ∧ q.lgyr_max ≤ 9) ∧ q.lgyr_peak + 0.99 ≤ q.lgyr_max ∧
    (nearest p q.lgfburst = q.lgfburst ∧ nearest p q.lgyr_peak = q.lgyr_peak ∧ nearest p q.lgyr_max = q.lgyr_max) := by
  have hp1 : 1 ≤ p := le_trans (by norm_num) hp
  have hp5 : 5 ≤ p := le_trans (by norm_num) hp
  have n5 := small_exact hp5 5 (by norm_num); have n8 := small_exact hp5 8 (by norm_num)
  have n3 := small_exact hp5 3 (by norm_num); have n9 := small_exact hp5 9 (by norm_num)
  have n8' := small_exact hp5 (-8) (by norm_num); have n1' := small_exact hp5 (-1) (by norm_num)
  have n7 := small_exact hp5 7 (by norm_num); have n6 := small_exact hp5 6 (by norm_num)
  push_cast at n5 n8 n3 n9 n8' n1' n7 n6
  have mem : ∀ {S : ℝ → Set ℝ} {x x0 k lo hi r : ℝ}, r ∈ Rounded.sigmoid (binary p hp1) S x x0 k lo hi → nearest p r = r := by
    rintro S x x0 k lo hi r ⟨hd, -, d, -, t, -, s, -, q, -, hr⟩
    rw [show r = nearest p _ from hr, nearest_idem hp1]
  obtain ⟨f, ⟨k, -, hf⟩, a, ⟨k', -, ha⟩, b, ⟨lo, hlo, s, -, x0, -, k'', -, hb⟩, rfl⟩ := hq
  have c1 : Diffburst.LGFBURST_MIN = -8 := by unfold Diffburst.LGFBURST_MIN; norm_num
  have c2 : Diffburst.LGFBURST_MAX = -1 := by unfold Diffburst.LGFBURST_MAX; norm_num
  have c3 : Diffburst.LGYR_PEAK_MIN = 5 := by unfold Diffburst.LGYR_PEAK_MIN; norm_num
  have c4 : Diffburst.LGYR_PEAK_MAX = 8 := by unfold Diffburst.LGYR_PEAK_MAX Diffburst.LGAGE_MAX Diffburst.DLGAGE_MIN; norm_num
  have c5 : Diffburst.LGAGE_MAX = 9 := by unfold Diffburst.LGAGE_MAX; norm_num
  have c6 : Diffburst.DLGAGE_MIN = 1 := by unfold Diffburst.DLGAGE_MIN; norm_num
  rw [c1, c2] at hf
  rw [c3, c4] at ha
  rw [c5] at hb
  have hlo' : lo = nearest p (a + 1) := by rw [← c6]; exact hlo
  have Bf := C136_in_bounds hp1 hv n8' (by norm_num) (by
    rw [show (-1:ℝ) - -8 = 7 by norm_num, n7, show (-8:ℝ) + 7 = -1 by norm_num, n1']) hf
  have Ba := C136_in_bounds hp1 hv n5 (by norm_num) (by
    rw [show (8:ℝ) - 5 = 3 by norm_num, n3, show (5:ℝ) + 3 = 8 by norm_num, n8]) ha
  have l6 : 6 ≤ lo := by
    have := nearest_mono hp1 (show (6:ℝ) ≤ a + 1 by linarith [Ba.1]); rwa [n6, ← hlo'] at this
  have l9 : lo ≤ 9 := by
    have := nearest_mono hp1 (show a + 1 ≤ (9:ℝ) by linarith [Ba.2]); rwa [n9, ← hlo'] at this
  have lm : nearest p lo = lo := by rw [hlo', nearest_idem hp1]
  have Bb := C136_in_bounds hp1 hv lm l9 (by rw [nine_sub hp5 lm l6 l9, add_sub_cancel, n9]) hb
  refine ⟨Bf, Ba, ⟨by rw [← hlo']; exact Bb.1, Bb.2⟩, ?_, mem hf, mem ha, mem hb⟩
  have hr := (abs_le.1 (nearest_rel hp1 (a + 1))).1
  rw [abs_of_pos (by linarith [Ba.1]), ← hlo'] at hr
  have hsm : ((1:ℝ) / 2) ^ p ≤ 1e-6 := by
    calc ((1:ℝ) / 2) ^ p ≤ (1 / 2) ^ 20 := pow_le_pow_of_le_one (by norm_num) (by norm_num) hp
      _ ≤ 1e-6 := by norm_num
  have : ((1:ℝ) / 2) ^ p * (a + 1) ≤ 1e-6 * 9 := mul_le_mul hsm (by linarith [Ba.2]) (by linarith [Ba.1]) (by norm_num)
  have := Bb.1
  norm_num at *
  linarith

/-- C138: `calc_bursty_age_weights_from_u_params` for **every** choice of unbounded parameters, every array of ages and non-negative smooth weights: the
weights are non-negative in round-to-nearest arithmetic. -/
theorem C138_from_u_params (hp : 20 ≤ p) (hP : P.u ≤ (1 / 2) ^ p) {v : ℝ} (hv : v ≤ 1 / 2) {d : ℕ} {u : Diffburst.BurstUParams} {w ages : Fin n → ℝ}
    (hd : d * (1 / 2 : ℝ) ^ p ≤ 0.009) (hw : ∀ i, 0 ≤ w i) {r : Fin n → ℝ}
    (hr : r ∈ Rounded.calc_bursty_age_weights_from_u_params P (binary p (le_trans (by norm_num) hp)) v
      (Rounded.logistic_xla (binary p (le_trans (by norm_num) hp)) v) d u w ages) (i : Fin n) : 0 ≤ r i := by
  obtain ⟨q, hq, hr⟩ := hr
  obtain ⟨⟨f0, f1⟩, ⟨a0, a1⟩, -, hab, mf, ma, mb⟩ := C138_params_in_bounds hp (hv.trans (by norm_num)) hq
  exact C138_bursty_nonneg hp hP hv ma (by norm_num at hab; linarith) f1 hd hw hr i

end nearest
end Dsps.Props
