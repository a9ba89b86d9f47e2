import Verif.Lemmas.NearE
import Verif.Lemmas.SigSlope
import Verif.Model.RoundedMzr
import Mathlib.Analysis.Calculus.MeanValue

/-! How the sigmoid propagates errors: an error of its argument that is small relative to the argument changes the value by at most that relative
error, however large the argument. -/
namespace Dsps.Lemmas
open Fl

lemma sigmoid_deriv_le_quarter (x : ℝ) : |Jnp.sigmoid x * (1 - Jnp.sigmoid x)| ≤ 1 / 4 := by
  have h0 := sigmoid_pos x
  have h1 := sigmoid_lt_one x
  rw [abs_of_nonneg (mul_nonneg h0.le (by linarith))]
  nlinarith [sq_nonneg (Jnp.sigmoid x - 1 / 2)]

lemma sigmoid_le_exp (x : ℝ) : Jnp.sigmoid x ≤ Real.exp x := by
  rw [sigmoid_eq, div_le_iff₀ (by positivity)]
  have := Real.exp_pos x
  nlinarith

/-- the slope decays like `e^-|x|` -/
lemma sigmoid_deriv_le_exp (x : ℝ) : |Jnp.sigmoid x * (1 - Jnp.sigmoid x)| ≤ Real.exp (-|x|) := by
  have h0 := sigmoid_pos x
  have h1 := sigmoid_lt_one x
  rw [abs_of_nonneg (mul_nonneg h0.le (by linarith))]
  rcases le_total 0 x with h | h
  · rw [abs_of_nonneg h]
    have := sigmoid_le_exp (-x)
    rw [sigmoid_neg] at this
    nlinarith
  · rw [abs_of_nonpos h, neg_neg]
    have := sigmoid_le_exp x
    nlinarith

lemma sigmoid_lipschitz (x y : ℝ) : |Jnp.sigmoid x - Jnp.sigmoid y| ≤ 1 / 4 * |x - y| := by
  have := convex_univ.norm_image_sub_le_of_norm_hasDerivWithin_le (f := Jnp.sigmoid) (f' := fun u => Jnp.sigmoid u * (1 - Jnp.sigmoid u))
    (C := 1 / 4) (s := Set.univ) (x := y) (y := x) (fun u _ => (hasDerivAt_sigmoid u).hasDerivWithinAt) (fun u _ => sigmoid_deriv_le_quarter u)
    trivial trivial
  simpa using this

lemma mul_exp_neg_le (x : ℝ) : x * Real.exp (-x) ≤ Real.exp (-1) := by
  have h := Real.add_one_le_exp (x - 1)
  have e : Real.exp (x - 1) = Real.exp (-1) * Real.exp x := by rw [← Real.exp_add]; congr 1; ring
  rw [Real.exp_neg x, ← div_eq_mul_inv, div_le_iff₀ (Real.exp_pos x), ← e]
  linarith

/-- scaling the argument by `1+α` changes the sigmoid by at most `|α|` -/
lemma sigmoid_scale {a α t : ℝ} (hα : |α| ≤ a) (ha : a ≤ 1 / 2) : |Jnp.sigmoid (t * (1 + α)) - Jnp.sigmoid t| ≤ a := by
  have ha0 : 0 ≤ a := (abs_nonneg _).trans hα
  have hC : ∀ u ∈ Set.uIcc t (t * (1 + α)), ‖Jnp.sigmoid u * (1 - Jnp.sigmoid u)‖ ≤ Real.exp (-((1 - a) * |t|)) := by
    intro u hu
    refine (sigmoid_deriv_le_exp u).trans (Real.exp_le_exp.2 (neg_le_neg ?_))
    obtain ⟨l, r⟩ := abs_le.1 hα
    rcases le_total 0 t with h | h
    · have : t * (1 - a) ≤ u := by
        refine le_trans ?_ hu.1
        rw [le_inf_iff]
        exact ⟨by nlinarith, by nlinarith⟩
      rw [abs_of_nonneg h]
      exact (by linarith : (1 - a) * t ≤ u).trans (le_abs_self u)
    · have : u ≤ t * (1 - a) := by
        refine hu.2.trans ?_
        rw [sup_le_iff]
        exact ⟨by nlinarith, by nlinarith⟩
      rw [abs_of_nonpos h]
      exact (by linarith : (1 - a) * -t ≤ -u).trans (neg_le_abs u)
  have h := (convex_uIcc t (t * (1 + α))).norm_image_sub_le_of_norm_hasDerivWithin_le (f := Jnp.sigmoid)
    (f' := fun u => Jnp.sigmoid u * (1 - Jnp.sigmoid u)) (fun u _ => (hasDerivAt_sigmoid u).hasDerivWithinAt) hC
    (Set.left_mem_uIcc) (Set.right_mem_uIcc)
  rw [Real.norm_eq_abs, Real.norm_eq_abs] at h
  refine h.trans ?_
  rw [show t * (1 + α) - t = t * α by ring, abs_mul]
  have h1 := mul_exp_neg_le ((1 - a) * |t|)
  have h2 : Real.exp (-1) ≤ 1 / 2 := by
    rw [Real.exp_neg, inv_le_comm₀ (Real.exp_pos _) (by norm_num)]
    have := Real.add_one_le_exp (1:ℝ)
    norm_num at this ⊢; linarith
  set E := Real.exp (-((1 - a) * |t|))
  have hE : 0 < E := Real.exp_pos _
  have h3 : 1 / 2 * (|t| * E) ≤ 1 / 2 := by
    have : 1 / 2 * (|t| * E) ≤ (1 - a) * |t| * E := by
      rw [mul_assoc]; exact mul_le_mul_of_nonneg_right (by linarith) (by positivity)
    linarith
  calc E * (|t| * |α|) = (|t| * E) * |α| := by ring
    _ ≤ 1 * a := mul_le_mul (by linarith) hα (abs_nonneg _) zero_le_one
    _ = a := one_mul a

/-- error of the sigmoid for an argument known up to `a (|t| + M)` -/
lemma sigmoid_err {a M t t' : ℝ} (hM : 0 ≤ M) (ha0 : 0 ≤ a) (ha : a ≤ 1 / 2) (h : |t' - t| ≤ a * (|t| + M)) :
    |Jnp.sigmoid t' - Jnp.sigmoid t| ≤ a * (1 + M / 4) := by
  obtain ⟨α, hα, hβ⟩ : ∃ α, |α| ≤ a ∧ |t' - t * (1 + α)| ≤ a * M := by
    by_cases hs : |t' - t| ≤ a * |t|
    · by_cases ht : t = 0
      · subst ht
        refine ⟨0, by simpa using ha0, ?_⟩
        simp only [abs_zero, mul_zero, sub_zero] at hs ⊢
        simp only [zero_mul, sub_zero]
        exact hs.trans (by positivity)
      · refine ⟨(t' - t) / t, ?_, ?_⟩
        · rw [abs_div, div_le_iff₀ (abs_pos.2 ht)]; exact hs
        · rw [show t' - t * (1 + (t' - t) / t) = 0 by field_simp; ring, abs_zero]; positivity
    · push Not at hs
      rcases le_total 0 (t' - t) with hd | hd
      · rw [abs_of_nonneg hd] at hs h
        rcases le_total 0 t with h0 | h0
        · rw [abs_of_nonneg h0] at hs h
          exact ⟨a, by rw [abs_of_nonneg ha0], by rw [abs_le]; constructor <;> nlinarith⟩
        · rw [abs_of_nonpos h0] at hs h
          exact ⟨-a, by rw [abs_neg, abs_of_nonneg ha0], by rw [abs_le]; constructor <;> nlinarith⟩
      · rw [abs_of_nonpos hd] at hs h
        rcases le_total 0 t with h0 | h0
        · rw [abs_of_nonneg h0] at hs h
          exact ⟨-a, by rw [abs_neg, abs_of_nonneg ha0], by rw [abs_le]; constructor <;> nlinarith⟩
        · rw [abs_of_nonpos h0] at hs h
          exact ⟨a, by rw [abs_of_nonneg ha0], by rw [abs_le]; constructor <;> nlinarith⟩
  have h1 := sigmoid_lipschitz t' (t * (1 + α))
  have h2 := sigmoid_scale (t := t) hα ha
  have h3 := abs_add_le (Jnp.sigmoid t' - Jnp.sigmoid (t * (1 + α))) (Jnp.sigmoid (t * (1 + α)) - Jnp.sigmoid t)
  rw [sub_add_sub_cancel] at h3
  linarith

namespace NearE
variable {ε M N x x' y y' : ℝ} {k l : ℕ} {A P : Arith}

/-- a machine sigmoid of an inexact argument -/
lemma logistic {v t t' s : ℝ} (hv : v ≤ ε) (hM : 0 ≤ M) (hk : (1 + ε) ^ k - 1 ≤ 1 / 2) (h : NearE ε k (|t| + M) t' t)
    (hε : 0 ≤ ε) (hs : s ∈ Rounded.logistic v t') : NearE ε (k + 1) (1 + M / 4) s (Jnp.sigmoid t) := by
  have h1 : (1:ℝ) ≤ (1 + ε) ^ k := one_le_pow₀ (by linarith)
  have he := sigmoid_err hM (by linarith) hk h.2
  have hs' : |s - Jnp.sigmoid t'| ≤ v := hs
  constructor
  · rw [abs_of_pos (sigmoid_pos t)]; linarith [sigmoid_lt_one t]
  · have h3 := abs_add_le (s - Jnp.sigmoid t') (Jnp.sigmoid t' - Jnp.sigmoid t)
    rw [sub_add_sub_cancel] at h3
    rw [pow_succ]
    have h4 : ε * 1 ≤ ε * ((1 + ε) ^ k * (1 + M / 4)) :=
      mul_le_mul_of_nonneg_left (one_le_mul_of_one_le_of_one_le h1 (by linarith)) hε
    nlinarith

/-- division by a number known up to `l` roundings -/
lemma div {c c' : ℝ} (hε : 0 ≤ ε) (hc : c ≠ 0) (hl : (1 + ε) * ((1 + ε) ^ l - 1) ^ 2 ≤ ε) (hl' : (1 + ε) ^ l - 1 < 1) (h : NearE ε k M x' x)
    (h' : NearE ε l |c| c' c) : c' ≠ 0 ∧ NearE ε (k + (l + 1)) (M / |c|) (x' / c') (x / c) := by
  have hc0 : 0 < |c| := abs_pos.2 hc
  set a := (1 + ε) ^ l - 1 with ha
  have ha0 : 0 ≤ a := by have : (1:ℝ) ≤ (1 + ε) ^ l := one_le_pow₀ (by linarith); linarith
  have hlow : (1 - a) * |c| ≤ |c'| := by
    have := abs_sub_abs_le_abs_sub c c'
    rw [abs_sub_comm] at this
    linarith [h'.2]
  have hc1 : 0 < |c'| := lt_of_lt_of_le (by have := sub_pos.2 hl'; positivity) hlow
  have hc' : c' ≠ 0 := abs_pos.1 hc1
  refine ⟨hc', ?_⟩
  have hi : NearE ε (l + 1) (1 / |c|) (1 / c') (1 / c) := by
    refine ⟨by rw [abs_div, abs_one], ?_⟩
    rw [div_sub_div _ _ hc' hc, abs_div, abs_mul, div_le_iff₀ (by positivity)]
    have e1 : |1 * c - c' * 1| ≤ a * |c| := by rw [one_mul, mul_one, abs_sub_comm]; exact h'.2
    have e2 : ((1 + ε) ^ (l + 1) - 1) * (1 / |c|) * (|c'| * |c|) = ((1 + ε) ^ (l + 1) - 1) * |c'| := by field_simp
    rw [e2, pow_succ, show (1 + ε) ^ l = a + 1 by rw [ha]; ring]
    refine e1.trans (le_trans ?_ (mul_le_mul_of_nonneg_left hlow (by nlinarith)))
    rw [← mul_assoc]
    refine mul_le_mul_of_nonneg_right ?_ hc0.le
    nlinarith
  have := h.mul hε hi
  rwa [mul_one_div, mul_one_div, mul_one_div] at this

/-- the difference of an exact and an inexact number -/
lemma sub_right (hε : 0 ≤ ε) (h : NearE ε k M y' y) : NearE ε k (|x - y| + M) (x - y') (x - y) := by
  have h1 : (1:ℝ) ≤ (1 + ε) ^ k := one_le_pow₀ (by linarith)
  refine ⟨by linarith [h.size_nonneg], ?_⟩
  rw [sub_sub_sub_cancel_left, abs_sub_comm]
  exact h.2.trans (mul_le_mul_of_nonneg_left (by linarith [abs_nonneg (x - y)]) (by linarith))

/-- a number is positive or negative as its exact value, clipped: `max`/`min` with zero do not increase errors -/
lemma clip_neg (h : NearE ε k M x' x) : NearE ε k M (if x' < 0 then 0 else x') (if x < 0 then 0 else x) := by
  have e : ∀ y : ℝ, (if y < 0 then 0 else y) = max y 0 := fun y => by
    split_ifs with h
    · exact (max_eq_right h.le).symm
    · exact (max_eq_left (not_lt.1 h)).symm
  rw [e, e]
  refine ⟨?_, (abs_max_sub_max_le_abs x' x 0).trans h.2⟩
  rw [abs_of_nonneg (le_max_right _ _), max_le_iff]
  exact ⟨(le_abs_self x).trans h.1, h.size_nonneg⟩

lemma clip_pos (h : NearE ε k M x' x) : NearE ε k M (if x' > 0 then 0 else x') (if x > 0 then 0 else x) := by
  have := h.neg.clip_neg.neg
  have e : ∀ y : ℝ, -(if -y < 0 then 0 else -y) = if y > 0 then 0 else y := fun y => by
    split_ifs with h1 h2 h2
    · simp
    · exact absurd (by linarith) h2
    · exact absurd (by linarith) h1
    · simp
  rwa [e, e] at this

/-- the machine sigmoid, from its four inexact ingredients: height, argument and lower value -/
lemma sigmoid_of {v T L H hd hd' t t' ylo ylo' s p r : ℝ} {kh kt ko : ℕ} (hε : 0 ≤ ε) (hA : A.u ≤ ε) (hv : v ≤ ε)
    (hk : (1 + ε) ^ kt - 1 ≤ 1 / 2) (hT : 0 ≤ T) (hh : NearE ε kh H hd' hd) (ht : NearE ε kt (|t| + T) t' t) (hL : NearE ε ko L ylo' ylo)
    (hs : s ∈ Rounded.logistic v t') (hp : p ∈ A.mul hd' s) (hr : r ∈ A.add ylo' p) :
    NearE ε (max ko (kh + (kt + 1) + 1) + 1) (L + H * (1 + T / 4)) r (ylo + hd * Jnp.sigmoid t) := by
  have h1 := ht.logistic hv hT hk hε hs
  have h2 := (hh.mul hε h1).rnd hA hp
  exact (hL.add hε h2).rnd hA hr

end NearE

/-- small powers -/
lemma pow_sub_one_le {ε : ℝ} (h0 : 0 ≤ ε) {k : ℕ} (hk : k * ε ≤ 0.01) : (1 + ε) ^ k - 1 ≤ 1.01 * k * ε := by
  have := (NearE.bound (ε := ε) (k := k) (M := 1) (x := 0) (x' := (1 + ε) ^ k - 1) h0 ⟨by simp, by
    have : (1:ℝ) ≤ (1 + ε) ^ k := one_le_pow₀ (by linarith)
    rw [sub_zero, abs_of_nonneg (by linarith), mul_one]⟩ hk)
  rw [sub_zero, mul_one] at this
  exact (le_abs_self _).trans this

end Dsps.Lemmas
