import Verif.Lemmas.Close
import Verif.Lemmas.Cosmology

/-! Floating-point accuracy of the expansion rate. -/
namespace Dsps.Lemmas
open Jnp Fl Spec

variable {A P : Arith} {η v : ℝ}

lemma close_pow (hv : Tol η v) {δ a a' p p' e : ℝ} (ha : 0 < a) (h : Close δ a' a) (hp : |p' - p| ≤ e) {r : ℝ}
    (hr : r ∈ Rounded.pow v a' p') : Close (|p'| * δ + e * |Real.log a| + η) r (a ^ p) := by
  have ha' := h.pos ha
  have h1 : Close η r (a' ^ p') := Close.of_rel hv (Real.rpow_nonneg ha'.le _) hr
  have h2 : Close (|p'| * δ + e * |Real.log a|) (a' ^ p') (a ^ p) := by
    refine Close.of_log (Real.rpow_pos_of_pos ha _) (Real.rpow_pos_of_pos ha' _) ?_
    rw [Real.log_rpow ha, Real.log_rpow ha']
    have e1 : p' * Real.log a' - p * Real.log a = p' * (Real.log a' - Real.log a) + (p' - p) * Real.log a := by ring
    rw [e1]
    refine (abs_add_le _ _).trans ?_
    rw [abs_mul, abs_mul]
    have := h.abs_log ha
    gcongr
  rw [add_comm]; exact h1.trans h2

lemma close_exp (hv : Tol η v) {x x' e : ℝ} (h : |x' - x| ≤ e) {r : ℝ} (hr : r ∈ Rounded.exp v x') : Close (e + η) r (Real.exp x) := by
  have h1 : Close η r (Real.exp x') := Close.of_rel hv (Real.exp_pos _).le hr
  have h2 : Close e (Real.exp x') (Real.exp x) := by
    refine Close.of_log (Real.exp_pos _) (Real.exp_pos _) ?_
    rwa [Real.log_exp, Real.log_exp]
  rw [add_comm]; exact h1.trans h2

/-- `1 + |w0| + |wa|`: the size of the dark-energy parameters -/
noncomputable def deSize (w0 wa : ℝ) : ℝ := 1 + |w0| + |wa|

lemma one_le_deSize (w0 wa : ℝ) : 1 ≤ deSize w0 wa := by unfold deSize; linarith [abs_nonneg w0, abs_nonneg wa]

/-- error of the dark-energy density, in roundings: `κ` roundings in `1+z`, `L ≥ log(1+z)` -/
noncomputable def Kde (κ L w0 wa : ℝ) : ℝ := deSize w0 wa * (6.1 * κ + 23 + 9.1 * L)

lemma Kde_ge {κ L : ℝ} (hκ : 0 ≤ κ) (hL : 0 ≤ L) (w0 wa : ℝ) : 6.1 * κ + 23 ≤ Kde κ L w0 wa := by
  have h1 := one_le_deSize w0 wa
  have h2 : 6.1 * κ + 23 + 9.1 * L ≤ Kde κ L w0 wa := by unfold Kde; exact le_mul_of_one_le_left (by positivity) h1
  have : 0 ≤ 9.1 * L := by positivity
  linarith

/-- the exponent `-3 (1 + w0 + wa)` -/
lemma exponent_err (hη1 : η ≤ 1 / 1000) (ht : Tol η A.u) {w0 wa q1 q2 p : ℝ} (h1 : q1 ∈ A.add 1.0 w0) (h2 : q2 ∈ A.add q1 wa)
    (h3 : p ∈ A.mul (-3.0) q2) : |p - -3.0 * (1.0 + w0 + wa)| ≤ 9.1 * deSize w0 wa * η ∧ |p| ≤ 3.02 * deSize w0 wa := by
  have hu := ht.le
  have hu0 := ht.1
  set B := deSize w0 wa with hB
  have hBd : B = 1 + |w0| + |wa| := rfl
  have hB1 := one_le_deSize w0 wa
  have r1 := A.rel _ _ h1
  have r2 := A.rel _ _ h2
  have r3 := A.rel _ _ h3
  norm_num at r1 r2 r3 ⊢
  have a0 : |1 + w0| ≤ 1 + |w0| := by simpa using abs_add_le 1 w0
  have wa0 := abs_nonneg wa
  have w00 := abs_nonneg w0
  have a1 : |q1 - (1 + w0)| ≤ A.u * (1 + |w0|) := r1.trans (mul_le_mul_of_nonneg_left a0 hu0)
  have a2 : |q1 + wa| ≤ (1 + A.u) * B := by
    have e : q1 + wa = (q1 - (1 + w0)) + (1 + w0) + wa := by ring
    have := abs_add_three (q1 - (1 + w0)) (1 + w0) wa
    rw [← e] at this
    nlinarith
  have a3 : |q2 - (1 + w0 + wa)| ≤ (2 * A.u + A.u ^ 2) * B := by
    have e : q2 - (1 + w0 + wa) = (q2 - (q1 + wa)) + (q1 - (1 + w0)) := by ring
    have := abs_add_le (q2 - (q1 + wa)) (q1 - (1 + w0))
    rw [← e] at this
    nlinarith [mul_le_mul_of_nonneg_left a2 hu0]
  have a4 : |1 + w0 + wa| ≤ B := by
    have := abs_add_three 1 w0 wa
    rw [abs_one] at this; linarith
  have a5 : |q2| ≤ (1 + A.u) ^ 2 * B := by
    have := abs_add_le (q2 - (1 + w0 + wa)) (1 + w0 + wa)
    rw [sub_add_cancel] at this
    nlinarith
  have a6 : |p + 3 * q2| ≤ 3 * A.u * ((1 + A.u) ^ 2 * B) := by
    refine r3.trans ?_
    have := mul_le_mul_of_nonneg_left a5 hu0
    nlinarith
  have key : |p + 3 * (1 + w0 + wa)| ≤ 3 * (3 * A.u + 3 * A.u ^ 2 + A.u ^ 3) * B := by
    have e : p + 3 * (1 + w0 + wa) = (p + 3 * q2) + (-3) * (q2 - (1 + w0 + wa)) := by ring
    have := abs_add_le (p + 3 * q2) ((-3) * (q2 - (1 + w0 + wa)))
    rw [← e, abs_mul, abs_neg, abs_of_pos (by norm_num : (0:ℝ) < 3)] at this
    nlinarith
  have u3 : 3 * A.u + 3 * A.u ^ 2 + A.u ^ 3 ≤ 3.03 * η := by
    have : A.u ≤ 1 / 1000 := hu.trans hη1
    have h2 : A.u ^ 2 ≤ 1 / 1000 * A.u := by nlinarith
    have h3 : A.u ^ 3 ≤ 1 / 1000 * A.u := by nlinarith [sq_nonneg A.u]
    norm_num; linarith
  have B0 : 0 ≤ B := by linarith
  have k1 := mul_le_mul_of_nonneg_right u3 B0
  have hηB := mul_nonneg ht.nonneg B0
  norm_num at k1
  refine ⟨by nlinarith, ?_⟩
  have e : p = (p + 3 * (1 + w0 + wa)) + -(3 * (1 + w0 + wa)) := by ring
  have := abs_add_le (p + 3 * (1 + w0 + wa)) (-(3 * (1 + w0 + wa)))
  rw [← e, abs_neg, abs_mul, abs_of_pos (by norm_num : (0:ℝ) < 3)] at this
  nlinarith [mul_le_mul_of_nonneg_right hη1 B0]

/-- the argument `-3 wa (1 - a)` -/
lemma argument_err (hη1 : η ≤ 1 / 1000) (ht : Tol η A.u) {κ a a' wa m t x : ℝ} (hκ : 0 ≤ κ) (hsmall : κ * η ≤ 1 / 100) (ha0 : 0 < a) (ha1 : a ≤ 1)
    (ha : Close (κ * η) a' a) (h1 : m ∈ A.mul (-3.0) wa) (h2 : t ∈ A.sub 1.0 a') (h3 : x ∈ A.mul m t) :
    |x - -3.0 * wa * (1.0 - a)| ≤ 3 * |wa| * (1.01 * κ + 3.1) * η := by
  have hu := ht.le
  have hu0 := ht.1
  have hη := ht.nonneg
  have r1 := A.rel _ _ h1
  have r2 := A.rel _ _ h2
  have r3 := A.rel _ _ h3
  norm_num at r1 r2 r3 ⊢
  have hw := abs_nonneg wa
  have ea : |a' - a| ≤ 1.01 * κ * η := by
    have h1 := ha.rel (by positivity) hsmall
    have := mul_le_mul_of_nonneg_left ha1 (show 0 ≤ 1.01 * (κ * η) by positivity)
    linarith
  have ha'0 := ha.pos ha0
  have hs : 1.01 * κ * η ≤ 0.011 := by norm_num at hsmall ⊢; linarith
  have b1 : |1 - a'| ≤ 1 := by
    have := abs_le.1 ea
    rw [abs_le]; constructor <;> norm_num at hs <;> linarith
  have b2 : |t - (1 - a)| ≤ (1.01 * κ + 1) * η := by
    have e : t - (1 - a) = (t - (1 - a')) + (a - a') := by ring
    have := abs_add_le (t - (1 - a')) (a - a')
    rw [← e, abs_sub_comm a a'] at this
    have := mul_le_mul_of_nonneg_left b1 hu0
    linarith
  have b3 : |t| ≤ 1.001 := by
    have := abs_add_le (t - (1 - a')) (1 - a')
    rw [sub_add_cancel] at this
    have h4 := mul_le_mul_of_nonneg_left b1 hu0
    norm_num; linarith
  have b4 : |m| ≤ 3.003 * |wa| := by
    have := abs_add_le (m + 3 * wa) (-(3 * wa))
    rw [add_neg_cancel_right, abs_neg, abs_mul, abs_of_pos (by norm_num : (0:ℝ) < 3)] at this
    have h5 : A.u * (3 * |wa|) ≤ 1 / 1000 * (3 * |wa|) := by gcongr; linarith
    norm_num; linarith
  have e : x + 3 * wa * (1 - a) = (x - m * t) + (m + 3 * wa) * t + -(3 * wa) * (t - (1 - a)) := by ring
  have := abs_add_three (x - m * t) ((m + 3 * wa) * t) (-(3 * wa) * (t - (1 - a)))
  rw [← e, abs_mul (m + 3 * wa), abs_mul (-(3 * wa)), abs_neg, abs_mul 3, abs_of_pos (by norm_num : (0:ℝ) < 3)] at this
  have c1 : A.u * (|m| * |t|) ≤ η * (3.003 * |wa| * 1.001) := by gcongr
  have c2 : |m + 3 * wa| * |t| ≤ (η * (3 * |wa|)) * 1.001 := by
    gcongr
    exact r1.trans (by gcongr)
  have c3 : 3 * |wa| * |t - (1 - a)| ≤ 3 * |wa| * ((1.01 * κ + 1) * η) := by gcongr
  have c0 : 0 ≤ |wa| * η := by positivity
  norm_num at c1 c2 c3 ⊢
  nlinarith

lemma close_rho (hη1 : η ≤ 1 / 1000) (ht : Tol η A.u) (hv : Tol η v) {κ z z' w0 wa L : ℝ} (hκ : 0 ≤ κ) (hsmall : (κ + 2) * η ≤ 1 / 100) (hz : 0 ≤ z)
    (hzz : Close (κ * η) (1 + z') (1 + z)) (hL : Real.log (1 + z) ≤ L) {r : ℝ} (hr : r ∈ Rounded.rho_de_z A v z' w0 wa) :
    Close (Kde κ L w0 wa * η) r (FlatWcdm.rho_de_z z w0 wa) := by
  obtain ⟨s, h1, a, h2, q1, h3, q2, h4, p, h5, f, h6, m, h7, t, h8, x, h9, e, h10, h11⟩ := hr
  have hη := ht.nonneg
  have e1 : (1.0 : ℝ) = 1 := by norm_num
  have w1 : Close ((κ + 1) * η) s (1 + z) := by
    rw [e1] at h1
    exact (hzz.rnd ht h1).mono (by linarith)
  have w2 : Close ((κ + 2) * η) a (1.0 / (1.0 + z)) := by
    have := ((Close.refl (by norm_num : (0:ℝ) ≤ 1.0)).div w1).rnd ht h2
    rw [← e1] at this
    exact this.mono (by linarith)
  obtain ⟨p1, p2⟩ := exponent_err hη1 ht h3 h4 h5
  have hz1 : 0 < 1.0 + z := by norm_num; linarith
  have ha0 : 0 < 1.0 / (1.0 + z) := by positivity
  have ha1 : 1.0 / (1.0 + z) ≤ 1 := by rw [div_le_one hz1]; norm_num; exact hz
  have x1 := argument_err hη1 ht (by linarith) hsmall ha0 ha1 w2 h7 h8 h9
  have w3 := close_pow hv ha0 w2 p1 h6
  have w4 := close_exp hv x1 h10
  have w5 := (w3.mul w4).rnd ht h11
  have hl : |Real.log (1.0 / (1.0 + z))| ≤ L := by
    rw [e1, one_div, Real.log_inv, abs_neg, abs_of_nonneg (Real.log_nonneg (by linarith))]; exact hL
  refine w5.mono ?_
  have hB := one_le_deSize w0 wa
  have hwa : |wa| ≤ deSize w0 wa - 1 := by unfold deSize; linarith [abs_nonneg w0]
  set B := deSize w0 wa
  have k1 : |p| * ((κ + 2) * η) ≤ 3.02 * B * ((κ + 2) * η) := by gcongr
  have k2 : 9.1 * B * η * |Real.log (1.0 / (1.0 + z))| ≤ 9.1 * B * η * L := by gcongr
  have k3 : 3 * |wa| * (1.01 * (κ + 2) + 3.1) * η ≤ 3 * (B - 1) * (1.01 * (κ + 2) + 3.1) * η := by gcongr
  have hk : Kde κ L w0 wa = B * (6.1 * κ + 23 + 9.1 * L) := rfl
  rw [hk]
  have n1 : 0 ≤ κ * η * B := by positivity
  have n2 : 0 ≤ κ * η := by positivity
  have n3 : η ≤ η * B := le_mul_of_one_le_right hη hB
  have n4 : κ * η ≤ κ * η * B := le_mul_of_one_le_right n2 hB
  norm_num at k1 k2 k3 ⊢
  nlinarith

/-- error of the expansion rate, in roundings -/
noncomputable def KE (κ L w0 wa : ℝ) : ℝ := Kde κ L w0 wa / 2 + 2.5

lemma KE_nonneg {κ L : ℝ} (hκ : 0 ≤ κ) (hL : 0 ≤ L) (w0 wa : ℝ) : 0 ≤ KE κ L w0 wa := by
  have := Kde_ge hκ hL w0 wa
  unfold KE; norm_num at this ⊢; linarith

lemma close_Ez (hη1 : η ≤ 1 / 1000) (ht : Tol η A.u) (hv : Tol η v) {κ z z' Om0 w0 wa L : ℝ} (hO : PhysicalOm Om0) (hκ : 0 ≤ κ)
    (hsmall : (κ + 2) * η ≤ 1 / 100) (hz : 0 ≤ z) (hzz : Close (κ * η) (1 + z') (1 + z)) (hL : Real.log (1 + z) ≤ L) {r : ℝ}
    (hr : r ∈ Rounded.Ez A v z' Om0 w0 wa) : Close (KE κ L w0 wa * η) r (FlatWcdm.Ez z Om0 w0 wa) := by
  obtain ⟨s, h1, o, h2, c, h3, a, h4, de, h5, b, h6, t, h7, h8⟩ := hr
  have hη := ht.nonneg
  have e1 : (1.0 : ℝ) = 1 := by norm_num
  have hL0 : 0 ≤ L := (Real.log_nonneg (by linarith)).trans hL
  have hK := Kde_ge hκ hL0 w0 wa
  have w1 : Close ((κ + 1) * η) s (1.0 + z) := by
    rw [e1] at h1 ⊢
    exact (hzz.rnd ht h1).mono (by linarith)
  have w2 : Close η o (1.0 - Om0) := by
    have := (Close.refl (x := 1.0 - Om0) (by rw [e1]; linarith [hO.2])).rnd ht h2
    rwa [zero_add] at this
  have w3 := (close_intPow ht w1 h3).2
  have w4 := ((Close.refl hO.1).mul w3).rnd ht h4
  have w5 := close_rho hη1 ht hv hκ hsmall hz hzz hL h5
  have w6 := (w2.mul w5).rnd ht h6
  have w4' : Close ((Kde κ L w0 wa + 2) * η) a (Om0 * (1.0 + z) ^ 3) := w4.mono (by
    have := mul_le_mul_of_nonneg_right hK hη
    have n2 : 0 ≤ κ * η := by positivity
    norm_num at this ⊢; linarith)
  have w6' : Close ((Kde κ L w0 wa + 2) * η) b ((1.0 - Om0) * FlatWcdm.rho_de_z z w0 wa) := w6.mono (by linarith)
  have w7 := ((w4'.add w6').rnd ht h7).sqrt.rnd ht h8
  have e : FlatWcdm.Ez z Om0 w0 wa = Real.sqrt (Om0 * (1.0 + z) ^ 3 + (1.0 - Om0) * FlatWcdm.rho_de_z z w0 wa) := rfl
  rw [e]
  refine w7.mono ?_
  unfold KE
  norm_num; linarith

end Dsps.Lemmas
