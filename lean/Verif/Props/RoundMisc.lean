import Verif.Model.RoundedMisc
import Verif.Props.RoundCosmoBits
import Verif.Props.SspPhot
import Verif.Props.RoundBurstBits
import Verif.Props.DustMag

/-! C152: floating-point accuracy of the effective wavelength of a filter and of the power law. -/
namespace Dsps.Props
open Jnp Fl Spec Dsps.Lemmas

variable {P A : Arith} {v ε : ℝ} {n d : ℕ}

/-! ### effective wavelength -/

/-- C152: the effective wavelength of any filter (positive increasing wavelengths, transmission not negative and not zero throughout) at any redshift
above -1: relative error at most `1.02 (2d + 12) ε`, for any order of the additions with chains of at most `d`. -/
theorem C152_effective_wavelength (M : Machine P A v ε) {fw ft : Fin (n + 1) → ℝ} {z r : ℝ} (hw : Monotone fw) (h0 : ∀ i, 0 ≤ fw i) (ht : ∀ i, 0 ≤ ft i)
    (hz : -1 < z) (hd : (2 * d + 12) * ε ≤ 0.0099) (hr : r ∈ Rounded.get_filter_effective_wavelength A d fw ft z) :
    |r - Dust.get_filter_effective_wavelength fw ft z| ≤ 1.02 * (2 * d + 12) * ε * Dust.get_filter_effective_wavelength fw ft z := by
  obtain ⟨N, h1, p, h2, S, h3, q, h4, zp, h5, hr⟩ := hr
  have hdx : ∀ i : Fin n, Close 0 (fw i.succ - fw i.castSucc) (fw i.succ - fw i.castSucc) := fun i =>
    Close.refl (sub_nonneg.2 (hw i.castSucc_le_succ))
  have cN := close_trapezoid M.tolA hdx (fun i => Close.refl (ht i)) h1
  have cS := close_trapezoid M.tolA hdx (fun i => ((Close.refl (mul_nonneg (ht i) (h0 i))).rnd M.tolA (h2 i))) h3
  have cq := (cS.div cN).rnd M.tolA h4
  have cz := (Close.refl (show (0:ℝ) ≤ 1 + z by linarith)).rnd M.tolA h5
  have cr := (cq.div cz).rnd M.tolA hr
  refine M.rel (K := 2 * d + 12) (cr.mono (le_of_eq ?_)) (by positivity) hd
  ring

/-- C152: in particular it lies in the band, up to that relative error. -/
theorem C152_effective_wavelength_in_band (M : Machine P A v ε) {fw ft : Fin (n + 1) → ℝ} {z r lo hi : ℝ} (hw : Monotone fw) (hlo : 0 ≤ lo)
    (hb : ∀ i, lo ≤ fw i ∧ fw i ≤ hi) (ht : ∀ i, 0 ≤ ft i) (hN : 0 < Utils.trapz fw ft)
    (hz : -1 < z) (hd : (2 * d + 12) * ε ≤ 0.0099) (hr : r ∈ Rounded.get_filter_effective_wavelength A d fw ft z) :
    lo / (1 + z) * (1 - 1.02 * (2 * d + 12) * ε) ≤ r ∧ r ≤ hi / (1 + z) * (1 + 1.02 * (2 * d + 12) * ε) := by
  have h := abs_le.1 (C152_effective_wavelength M hw (fun i => hlo.trans (hb i).1) ht hz hd hr)
  have hz1 : 0 < 1 + z := by linarith
  have ε0 := M.eps_nonneg
  set L := Dust.get_filter_effective_wavelength fw ft z with hL
  have e1 : lo / (1 + z) ≤ L := by
    rw [hL]; unfold Dust.get_filter_effective_wavelength
    simp only
    refine div_le_div_of_nonneg_right ?_ hz1.le
    rw [le_div_iff₀ hN, ← trapz_smul]
    exact trapz_mono hw fun i => by nlinarith [ht i, (hb i).1]
  have e2 : L ≤ hi / (1 + z) := by
    rw [hL]; unfold Dust.get_filter_effective_wavelength
    simp only
    refine div_le_div_of_nonneg_right ?_ hz1.le
    rw [div_le_iff₀ hN, ← trapz_smul]
    exact trapz_mono hw fun i => by nlinarith [ht i, (hb i).2]
  have k0 : 0 ≤ 1.02 * (2 * (d:ℝ) + 12) * ε := by positivity
  have k1 : 1.02 * (2 * (d:ℝ) + 12) * ε ≤ 1 := by norm_num at hd ⊢; linarith
  constructor
  · have := mul_le_mul_of_nonneg_right e1 (sub_nonneg.2 k1); linarith [h.1]
  · have := mul_le_mul_of_nonneg_right e2 (show 0 ≤ 1 + 1.02 * (2 * (d:ℝ) + 12) * ε by linarith); linarith [h.2]

/-! ### power law -/

lemma close_sign {η δ s x' x r : ℝ} (ht : Tol η A.u) (hs : s = 1 ∨ s = -1) (h : Close δ (s * x') (s * x)) (hr : r ∈ A.rnd x') : Close (δ + η) (s * r) (s * x) := by
  have h1 := A.rel _ _ hr
  have e : |s * x'| = |x'| := by rcases hs with rfl | rfl <;> simp
  have e2 : |s * r - s * x'| = |r - x'| := by
    rw [← mul_sub, abs_mul]; rcases hs with rfl | rfl <;> simp
  rw [← e, abs_of_nonneg h.nonneg, ← e2] at h1
  have := (Close.of_rel ht h.nonneg h1).trans h
  rwa [add_comm]

/-- how ill-conditioned the difference `b^g - a^g` is -/
noncomputable def powCond (a b g : ℝ) : ℝ := (b ^ g + a ^ g) / |b ^ g - a ^ g|

/-- cost of the power-law density -/
noncomputable def pdfCost (x a b g : ℝ) : ℝ := 1.02 * powCond a b g + |g - 1| * |Real.log x| + 5

lemma pow_diff_ne {a b g : ℝ} (ha : 0 < a) (hab : a < b) (hg : g ≠ 0) : b ^ g - a ^ g ≠ 0 := by
  rw [sub_ne_zero]
  rcases hg.lt_or_gt with h | h
  · exact (Real.rpow_lt_rpow_of_neg ha hab h).ne
  · exact (Real.rpow_lt_rpow ha.le hab h).ne'

lemma pow_diff_sign {a b g s : ℝ} (ha : 0 < a) (hab : a < b) (hg : g ≠ 0) (hs : s = if 0 < g then 1 else -1) :
    s * (b ^ g - a ^ g) = |b ^ g - a ^ g| ∧ s * g = |g| := by
  rcases hg.lt_or_gt with h | h
  · rw [hs, if_neg (not_lt.2 h.le), abs_of_neg (sub_neg.2 (Real.rpow_lt_rpow_of_neg ha hab h)), abs_of_neg h]
    constructor <;> ring
  · rw [hs, if_pos h, abs_of_pos (sub_pos.2 (Real.rpow_lt_rpow ha.le hab h)), abs_of_pos h]
    constructor <;> ring

/-- C152: the power-law density, with `0 < a < b`, an index `g ≠ 0` of either sign and `x > 0`: relative error at most `1.02 K ε`, where `K` counts five
roundings, `|g-1| |ln x|` for the rounded exponent, and the condition number `(b^g + a^g)/|b^g - a^g|` of the normalisation. -/
theorem C152_powerlaw_pdf (M : Machine P A v ε) {x a b g r : ℝ} (hx : 0 < x) (ha : 0 < a) (hab : a < b) (hg : g ≠ 0)
    (hK : pdfCost x a b g * ε ≤ 0.0099) (hr : r ∈ Rounded.powerlaw_pdf A v x a b g) :
    |r - Utils.powerlaw_pdf x a b g| ≤ 1.02 * pdfCost x a b g * ε * Utils.powerlaw_pdf x a b g := by
  obtain ⟨ag, h1, bg, h2, e, h3, p, h4, N, h5, D, h6, hr⟩ := hr
  obtain ⟨s, hs⟩ : ∃ s : ℝ, s = if 0 < g then 1 else -1 := ⟨_, rfl⟩
  have hs1 : s = 1 ∨ s = -1 := by rw [hs]; split_ifs <;> simp
  have hss : s * s = 1 := by rcases hs1 with h | h <;> rw [h] <;> norm_num
  obtain ⟨sd, sg⟩ := pow_diff_sign ha hab hg hs
  have ε0 := M.eps_nonneg
  have hA0 : 0 < a ^ g := Real.rpow_pos_of_pos ha g
  have hB0 : 0 < b ^ g := Real.rpow_pos_of_pos (ha.trans hab) g
  have hD0 : 0 < |b ^ g - a ^ g| := abs_pos.2 (pow_diff_ne ha hab hg)
  have hc0 : 0 ≤ powCond a b g := by unfold powCond; positivity
  have hl0 : 0 ≤ |g - 1| * |Real.log x| := by positivity
  -- the exponent and the power
  have he : |e - (g - 1)| ≤ ε * |g - 1| := (A.rel _ _ h3).trans (mul_le_mul_of_nonneg_right M.jax (abs_nonneg _))
  have cp := close_pow M.tolv hx (Close.refl hx.le) he h4
  have cN : Close (|e| * 0 + ε * |g - 1| * |Real.log x| + 1.001 * ε + 1.001 * ε) (s * N) (s * (g * x ^ (g - 1))) := by
    refine close_sign M.tolA hs1 ?_ h5
    have := (Close.refl (abs_nonneg g)).mul cp
    have e1 : |g| * p = s * (g * p) := by rw [← sg]; ring
    have e2 : |g| * x ^ (g - 1) = s * (g * x ^ (g - 1)) := by rw [← sg]; ring
    rwa [zero_add, e1, e2] at this
  -- the normalisation
  have cD : Close (1.02 * (powCond a b g * ε) + 1.001 * ε) (s * D) (s * (b ^ g - a ^ g)) := by
    refine close_sign M.tolA hs1 ?_ h6
    refine Close.of_small (by rw [sd]; exact hD0.le) (by positivity) ?_ ?_
    · unfold pdfCost at hK
      have : powCond a b g * ε ≤ pdfCost x a b g * ε := by
        refine mul_le_mul_of_nonneg_right ?_ ε0
        unfold pdfCost; linarith
      unfold pdfCost at this
      linarith
    · have q1 : |ag - a ^ g| ≤ ε * a ^ g := le_trans h1 (mul_le_mul_of_nonneg_right M.lib hA0.le)
      have q2 : |bg - b ^ g| ≤ ε * b ^ g := le_trans h2 (mul_le_mul_of_nonneg_right M.lib hB0.le)
      have e1 : |s * (bg - ag) - s * (b ^ g - a ^ g)| = |(bg - ag) - (b ^ g - a ^ g)| := by
        rw [← mul_sub, abs_mul]; rcases hs1 with h | h <;> rw [h] <;> simp
      have e2 : powCond a b g * ε * (s * (b ^ g - a ^ g)) = ε * (b ^ g + a ^ g) := by
        rw [sd]; unfold powCond; field_simp
      rw [e1, e2]
      have := abs_sub (bg - b ^ g) (ag - a ^ g)
      have e3 : (bg - ag) - (b ^ g - a ^ g) = (bg - b ^ g) - (ag - a ^ g) := by ring
      rw [e3]
      linarith
  have cr := (cN.div cD).rnd M.tolA (r := r) (by
    have : s * N / (s * D) = N / D := by
      rw [mul_div_mul_left]; rcases hs1 with h | h <;> rw [h] <;> norm_num
    rw [this]; exact hr)
  have ex : s * (g * x ^ (g - 1)) / (s * (b ^ g - a ^ g)) = Utils.powerlaw_pdf x a b g := by
    unfold Utils.powerlaw_pdf
    rw [mul_div_mul_left]; rcases hs1 with h | h <;> rw [h] <;> norm_num
  rw [ex] at cr
  refine M.rel (cr.mono ?_) (by unfold pdfCost; linarith) hK
  unfold pdfCost
  have t1 : ε * |g - 1| * |Real.log x| ≤ |g - 1| * |Real.log x| * (1.001 * ε) := by
    have := mul_nonneg hl0 ε0
    norm_num; linarith
  have t2 : 1.02 * (powCond a b g * ε) ≤ 1.02 * powCond a b g * (1.001 * ε) := by
    have := mul_nonneg hc0 ε0
    norm_num; linarith
  have : |e| * 0 = 0 := mul_zero _
  nlinarith

/-- how ill-conditioned the sum `s = a^g + (b^g - a^g) r` is -/
noncomputable def drawCond (r a b g : ℝ) : ℝ := (a ^ g + (a ^ g + b ^ g) * r) / (a ^ g + (b ^ g - a ^ g) * r)

lemma draw_pos {r a b g : ℝ} (ha : 0 < a) (hab : a < b) (h0 : 0 ≤ r) (h1 : r ≤ 1) : 0 < a ^ g + (b ^ g - a ^ g) * r := by
  have hA0 : 0 < a ^ g := Real.rpow_pos_of_pos ha g
  have hB0 : 0 < b ^ g := Real.rpow_pos_of_pos (ha.trans hab) g
  rcases h0.lt_or_eq with h | h
  · nlinarith
  · rw [← h]; linarith

lemma draw_arith {e G c L ε : ℝ} (ε0 : 0 ≤ ε) (t1 : e * (1.02 * (4.01 * c * ε)) ≤ 1.001 * G * (1.02 * (4.01 * c * ε)))
    (t2 : 0 ≤ G * (c * ε)) (t3 : 0 ≤ ε * (G * L)) :
    e * (1.02 * (4.01 * c * ε)) + ε * G * L + 1.001 * ε ≤ (4.2 * c * G + G * L + 2) * (1.001 * ε) := by
  have a1 : 1.001 * G * (1.02 * (4.01 * c * ε)) = 1.001 * 1.02 * 4.01 * (G * (c * ε)) := by ring
  have a2 : (4.2 * c * G + G * L + 2) * (1.001 * ε) = 4.2 * 1.001 * (G * (c * ε)) + 1.001 * (ε * (G * L)) + 2 * 1.001 * ε := by ring
  have a3 : ε * G * L = ε * (G * L) := by ring
  rw [a1] at t1
  rw [a2, a3]
  norm_num at t1 ⊢
  linarith

/-- the argument of the last power is computed with error at most `4.01 ε` times the sum of the sizes of its terms -/
lemma draw_arg (M : Machine P A v ε) {u a b g ag bg D m s : ℝ} (h0 : 0 ≤ u) (h1 : u ≤ 1) (ha : 0 < a) (hab : a < b)
    (p1 : ag ∈ Rounded.pow v a g) (p2 : bg ∈ Rounded.pow v b g) (p3 : D ∈ A.sub bg ag) (p4 : m ∈ A.mul D u) (p5 : s ∈ A.add ag m) :
    |s - (a ^ g + (b ^ g - a ^ g) * u)| ≤ 4.01 * ε * (a ^ g + (a ^ g + b ^ g) * u) := by
  have ε0 := M.eps_nonneg
  have hA0 : 0 < a ^ g := Real.rpow_pos_of_pos ha g
  have hB0 : 0 < b ^ g := Real.rpow_pos_of_pos (ha.trans hab) g
  have q1 : |ag - a ^ g| ≤ ε * a ^ g := le_trans p1 (mul_le_mul_of_nonneg_right M.lib hA0.le)
  have q2 : |bg - b ^ g| ≤ ε * b ^ g := le_trans p2 (mul_le_mul_of_nonneg_right M.lib hB0.le)
  have hS := draw_pos (g := g) ha hab h0 h1
  set a' := a ^ g
  set b' := b ^ g
  set S := a' + (b' - a') * u with hSdef
  set N := a' + (a' + b') * u with hN
  have hN0 : 0 ≤ N := by positivity
  have hSN : S ≤ N := by nlinarith
  have εs : ε ≤ 1e-6 := M.small
  -- the difference
  have d1 : |D - (bg - ag)| ≤ ε * |bg - ag| := (A.rel _ _ p3).trans (mul_le_mul_of_nonneg_right M.jax (abs_nonneg _))
  have d2 : |(bg - ag) - (b' - a')| ≤ ε * (a' + b') := by
    have := abs_sub (bg - b') (ag - a')
    have e3 : (bg - ag) - (b' - a') = (bg - b') - (ag - a') := by ring
    rw [e3]; linarith
  have d3 : |b' - a'| ≤ a' + b' := by rw [abs_le]; constructor <;> linarith
  have d4 : |bg - ag| ≤ 1.001 * (a' + b') := by
    have := abs_add_le ((bg - ag) - (b' - a')) (b' - a')
    rw [sub_add_cancel] at this
    have : ε * (a' + b') ≤ 0.001 * (a' + b') := mul_le_mul_of_nonneg_right (by norm_num at εs ⊢; linarith) (by positivity)
    norm_num at this ⊢; linarith
  have d5 : |D - (b' - a')| ≤ 2.001 * ε * (a' + b') := by
    have t := abs_add_le (D - (bg - ag)) ((bg - ag) - (b' - a'))
    rw [sub_add_sub_cancel] at t
    have := mul_le_mul_of_nonneg_left d4 ε0
    norm_num at this ⊢; linarith
  have d6 : |D| ≤ 1.001 * (a' + b') := by
    have t := abs_add_le (D - (b' - a')) (b' - a')
    rw [sub_add_cancel] at t
    have : 2.001 * ε * (a' + b') ≤ 0.001 * (a' + b') := mul_le_mul_of_nonneg_right (by norm_num at εs ⊢; linarith) (by positivity)
    norm_num at this ⊢; linarith
  -- the product
  have m1 : |m - D * u| ≤ ε * |D * u| := (A.rel _ _ p4).trans (mul_le_mul_of_nonneg_right M.jax (abs_nonneg _))
  rw [abs_mul, abs_of_nonneg h0] at m1
  have m2 : |m - (b' - a') * u| ≤ 3.003 * ε * ((a' + b') * u) := by
    have t := abs_add_le (m - D * u) (D * u - (b' - a') * u)
    rw [sub_add_sub_cancel, ← sub_mul, abs_mul, abs_of_nonneg h0] at t
    have t1 := mul_le_mul_of_nonneg_right d5 h0
    have t2 := mul_le_mul_of_nonneg_left (mul_le_mul_of_nonneg_right d6 h0) ε0
    have t3 : 0 ≤ ε * ((a' + b') * u) := by positivity
    norm_num at t1 t2 ⊢; linarith
  -- the sum
  have s1 : |s - (ag + m)| ≤ ε * |ag + m| := (A.rel _ _ p5).trans (mul_le_mul_of_nonneg_right M.jax (abs_nonneg _))
  have s2 : |(ag + m) - S| ≤ 3.003 * ε * N := by
    have t := abs_add_le (ag - a') (m - (b' - a') * u)
    have e3 : (ag + m) - S = (ag - a') + (m - (b' - a') * u) := by rw [hSdef]; ring
    rw [e3, hN]
    have : 0 ≤ ε * a' := by positivity
    norm_num at m2 ⊢; linarith
  have s3 : |ag + m| ≤ 1.001 * N := by
    have t := abs_add_le ((ag + m) - S) S
    rw [sub_add_cancel, abs_of_pos hS] at t
    have : 3.003 * ε * N ≤ 0.001 * N := mul_le_mul_of_nonneg_right (by norm_num at εs ⊢; linarith) hN0
    norm_num at this ⊢; linarith
  have s4 : |s - S| ≤ 4.01 * ε * N := by
    have t := abs_add_le (s - (ag + m)) ((ag + m) - S)
    rw [sub_add_sub_cancel] at t
    have t2 := mul_le_mul_of_nonneg_left s3 ε0
    have t3 : 0 ≤ ε * N := by positivity
    norm_num at t2 s2 ⊢; linarith
  exact s4

set_option maxHeartbeats 1000000 in
/-- C152: draws from the power law, in terms of the conditioning of the argument of the last power. -/
theorem draw_error (M : Machine P A v ε) {u a b g r : ℝ} (h0 : 0 ≤ u) (h1 : u ≤ 1) (ha : 0 < a) (hab : a < b) (hg : g ≠ 0)
    (hκ : drawCond u a b g * ε ≤ 0.002)
    (hK : (4.2 * drawCond u a b g / |g| + |Real.log (Utils.powerlaw_rvs u a b g)| + 2) * ε ≤ 0.0099) (hr : r ∈ Rounded.powerlaw_rvs A v u a b g) :
    |r - Utils.powerlaw_rvs u a b g| ≤
      1.02 * (4.2 * drawCond u a b g / |g| + |Real.log (Utils.powerlaw_rvs u a b g)| + 2) * ε * Utils.powerlaw_rvs u a b g := by
  obtain ⟨ag, p1, bg, p2, D, p3, m, p4, s, p5, e, p6, hr⟩ := hr
  have ε0 := M.eps_nonneg
  have εs : ε ≤ 1e-6 := M.small
  have s4 := draw_arg M h0 h1 ha hab p1 p2 p3 p4 p5
  have hA0 : 0 < a ^ g := Real.rpow_pos_of_pos ha g
  have hB0 : 0 < b ^ g := Real.rpow_pos_of_pos (ha.trans hab) g
  have hS := draw_pos (g := g) ha hab h0 h1
  have ex : (a ^ g + (b ^ g - a ^ g) * u) ^ (1 / g) = Utils.powerlaw_rvs u a b g := by
    unfold Utils.powerlaw_rvs; norm_num
  have hκ' : drawCond u a b g = (a ^ g + (a ^ g + b ^ g) * u) / (a ^ g + (b ^ g - a ^ g) * u) := rfl
  rw [hκ'] at hκ hK ⊢
  have hN0 : 0 ≤ a ^ g + (a ^ g + b ^ g) * u := by positivity
  generalize a ^ g + (a ^ g + b ^ g) * u = N at *
  generalize a ^ g + (b ^ g - a ^ g) * u = S at *
  have κ0 : 0 ≤ N / S := by positivity
  have cs : Close (1.02 * (4.01 * (N / S) * ε)) s S := by
    refine Close.of_small hS.le (by positivity) (by norm_num at hκ ⊢; linarith) ?_
    refine s4.trans (le_of_eq ?_)
    field_simp
  -- the last power
  have e1 : |e - 1 / g| ≤ ε * |1 / g| := by
    have : |e - 1.0 / g| ≤ A.u * |1.0 / g| := A.rel _ _ p6
    rw [show (1.0:ℝ) = 1 by norm_num] at this
    exact this.trans (mul_le_mul_of_nonneg_right M.jax (abs_nonneg _))
  have cr := close_pow M.tolv hS cs e1 hr
  rw [ex] at cr
  have hlog : Real.log (Utils.powerlaw_rvs u a b g) = 1 / g * Real.log S := by rw [← ex, Real.log_rpow hS]
  have hg0 : 0 < |g| := abs_pos.2 hg
  have hab' : |Real.log (Utils.powerlaw_rvs u a b g)| = |1 / g| * |Real.log S| := by rw [hlog, abs_mul]
  have he' : |e| ≤ 1.001 * |1 / g| := by
    have t := abs_add_le (e - 1 / g) (1 / g)
    rw [sub_add_cancel] at t
    have : ε * |1 / g| ≤ 0.001 * |1 / g| := mul_le_mul_of_nonneg_right (by norm_num at εs ⊢; linarith) (abs_nonneg _)
    linarith
  refine M.rel (cr.mono ?_) (by positivity) hK
  rw [hab']
  have eg : 4.2 * (N / S) / |g| = 4.2 * (N / S) * |1 / g| := by rw [abs_div, abs_one]; ring
  rw [eg]
  have t1 : |e| * (1.02 * (4.01 * (N / S) * ε)) ≤ 1.001 * |1 / g| * (1.02 * (4.01 * (N / S) * ε)) :=
    mul_le_mul_of_nonneg_right he' (by positivity)
  have t2 : 0 ≤ |1 / g| * ((N / S) * ε) := by positivity
  have t3 : 0 ≤ ε * (|1 / g| * |Real.log S|) := by positivity
  exact draw_arith ε0 t1 t2 t3

lemma drawCond_pos_index {u a b g : ℝ} (h0 : 0 ≤ u) (h1 : u ≤ 1) (ha : 0 < a) (hab : a < b) (hg : 0 < g) : drawCond u a b g ≤ 3 := by
  have hS := draw_pos (g := g) ha hab h0 h1
  have hA0 : 0 < a ^ g := Real.rpow_pos_of_pos ha g
  have hlt := Real.rpow_lt_rpow ha.le hab hg
  unfold drawCond
  rw [div_le_iff₀ hS]
  nlinarith [mul_nonneg (sub_nonneg.2 hlt.le) h0, mul_nonneg hA0.le h0]

lemma drawCond_neg_index {u a b g : ℝ} (h0 : 0 ≤ u) (h1 : u ≤ 1) (ha : 0 < a) (hab : a < b) (hg : g < 0) : drawCond u a b g ≤ 3 * (b / a) ^ (-g) := by
  have hb := ha.trans hab
  have hS := draw_pos (g := g) ha hab h0 h1
  have hA0 : 0 < a ^ g := Real.rpow_pos_of_pos ha g
  have hB0 : 0 < b ^ g := Real.rpow_pos_of_pos hb g
  have hlt := Real.rpow_lt_rpow_of_neg ha hab hg
  have e : (b / a) ^ (-g) = a ^ g / b ^ g := by
    rw [Real.div_rpow hb.le ha.le, Real.rpow_neg hb.le, Real.rpow_neg ha.le]; field_simp
  unfold drawCond
  rw [e, div_le_iff₀ hS]
  have h2 : b ^ g ≤ a ^ g + (b ^ g - a ^ g) * u := by nlinarith
  have h3 : a ^ g + (a ^ g + b ^ g) * u ≤ 3 * a ^ g := by nlinarith
  calc _ ≤ 3 * a ^ g := h3
    _ = 3 * (a ^ g / b ^ g) * b ^ g := by field_simp
    _ ≤ _ := mul_le_mul_of_nonneg_left h2 (by positivity)

/-- cost of a draw from a power law with positive index -/
noncomputable def drawCost (u a b g : ℝ) : ℝ := 12.6 / g + |Real.log (Utils.powerlaw_rvs u a b g)| + 2

/-- C152: **draws from a power law with positive index** are accurate for every deviate in `[0,1]` and all bounds: relative error at most
`1.02 (12.6/g + |ln draw| + 2) ε`. -/
theorem C152_powerlaw_draw (M : Machine P A v ε) {u a b g r : ℝ} (h0 : 0 ≤ u) (h1 : u ≤ 1) (ha : 0 < a) (hab : a < b) (hg : 0 < g)
    (hK : drawCost u a b g * ε ≤ 0.0099) (hr : r ∈ Rounded.powerlaw_rvs A v u a b g) :
    |r - Utils.powerlaw_rvs u a b g| ≤ 1.02 * drawCost u a b g * ε * Utils.powerlaw_rvs u a b g := by
  have ε0 := M.eps_nonneg
  have hc := drawCond_pos_index h0 h1 ha hab hg
  have le : 4.2 * drawCond u a b g / |g| + |Real.log (Utils.powerlaw_rvs u a b g)| + 2 ≤ drawCost u a b g := by
    unfold drawCost
    have : 4.2 * drawCond u a b g / |g| ≤ 12.6 / g := by
      rw [abs_of_pos hg]
      exact div_le_div_of_nonneg_right (by linarith) hg.le
    linarith
  have hd : 0 < Utils.powerlaw_rvs u a b g := Real.rpow_pos_of_pos (draw_pos ha hab h0 h1) _
  have hsm := mul_le_mul_of_nonneg_right hc ε0
  have := draw_error M h0 h1 ha hab hg.ne' (by have := M.small; norm_num at this hsm ⊢; linarith)
    ((mul_le_mul_of_nonneg_right le ε0).trans hK) hr
  refine this.trans (mul_le_mul_of_nonneg_right ?_ hd.le)
  have := mul_le_mul_of_nonneg_right le ε0
  linarith

/-- cost of a draw from a power law with negative index -/
noncomputable def drawCostNeg (u a b g : ℝ) : ℝ := 12.6 * (b / a) ^ (-g) / (-g) + |Real.log (Utils.powerlaw_rvs u a b g)| + 2

/-- C152: **with a negative index** the rounding errors may be amplified by up to `(b/a)^(-g)`, the contrast of the two bounds. -/
theorem C152_powerlaw_draw_negative (M : Machine P A v ε) {u a b g r : ℝ} (h0 : 0 ≤ u) (h1 : u ≤ 1) (ha : 0 < a) (hab : a < b) (hg : g < 0)
    (hκ : 3 * (b / a) ^ (-g) * ε ≤ 0.002) (hK : drawCostNeg u a b g * ε ≤ 0.0099) (hr : r ∈ Rounded.powerlaw_rvs A v u a b g) :
    |r - Utils.powerlaw_rvs u a b g| ≤ 1.02 * drawCostNeg u a b g * ε * Utils.powerlaw_rvs u a b g := by
  have ε0 := M.eps_nonneg
  have hc := drawCond_neg_index h0 h1 ha hab hg
  have le : 4.2 * drawCond u a b g / |g| + |Real.log (Utils.powerlaw_rvs u a b g)| + 2 ≤ drawCostNeg u a b g := by
    unfold drawCostNeg
    have : 4.2 * drawCond u a b g / |g| ≤ 12.6 * (b / a) ^ (-g) / (-g) := by
      rw [abs_of_neg hg]
      exact div_le_div_of_nonneg_right (by linarith) (by linarith)
    linarith
  have hd : 0 < Utils.powerlaw_rvs u a b g := Real.rpow_pos_of_pos (draw_pos ha hab h0 h1) _
  have := draw_error M h0 h1 ha hab hg.ne ((mul_le_mul_of_nonneg_right hc ε0).trans hκ)
    ((mul_le_mul_of_nonneg_right le ε0).trans hK) hr
  refine this.trans (mul_le_mul_of_nonneg_right ?_ hd.le)
  have := mul_le_mul_of_nonneg_right le ε0
  linarith

/-- C152: **the amplification is real.**  In single precision (round to nearest, correctly rounded powers), with index -1 and bounds 1 and `2^26`, the
largest deviate `1 - 2^-23` that JAX's generator can return gives the draw `2^23` exactly: more than 10% above the exact value. -/
theorem C152_negative_index_loses_accuracy {r : ℝ}
    (hr : r ∈ Rounded.powerlaw_rvs (binary 24 (by norm_num)) 0 (1 - 2 ^ (-23:ℤ)) 1 (2 ^ 26) (-1)) :
    r = 2 ^ 23 ∧ 1.1 * Utils.powerlaw_rvs (1 - 2 ^ (-23:ℤ)) 1 (2 ^ 26) (-1) < r := by
  have hpow : ∀ {x y r : ℝ}, r ∈ Rounded.pow 0 x y → r = x ^ y := fun {x y r} h => by
    have h' : |r - x ^ y| ≤ 0 * _ := h
    rw [zero_mul] at h'
    exact sub_eq_zero.1 (abs_nonpos_iff.1 h')
  obtain ⟨ag, p1, bg, p2, D, p3, m, p4, s, p5, e, p6, hr⟩ := hr
  have e1 : ag = 1 := by rw [hpow p1, Real.one_rpow]
  have e2 : bg = 2 ^ (-26:ℤ) := by rw [hpow p2, Real.rpow_neg_one]; norm_num
  have hlog : Int.log 2 |(2:ℝ) ^ (-26:ℤ) - 1| = -1 := by
    have ha : |(2:ℝ) ^ (-26:ℤ) - 1| = 1 - 2 ^ (-26:ℤ) := by rw [abs_of_neg (by norm_num)]; ring
    have hp : (0:ℝ) < 1 - 2 ^ (-26:ℤ) := by norm_num
    rw [ha]
    apply le_antisymm
    · have : Int.log 2 (1 - (2:ℝ) ^ (-26:ℤ)) < 0 := by
        rw [← Int.lt_zpow_iff_log_lt (by norm_num) hp]; norm_num
      omega
    · rw [← Int.zpow_le_iff_le_log (by norm_num) hp]; norm_num
  have e3 : D = -1 := by
    have h : D = nearest 24 (bg - ag) := p3
    rw [h, e1, e2]
    unfold nearest quantum
    rw [hlog]
    have : round (((2:ℝ) ^ (-26:ℤ) - 1) / (2:ℝ) ^ ((-1:ℤ) - (24:ℕ) + 1)) = -2 ^ 24 := by
      rw [round_eq, Int.floor_eq_iff]
      norm_num
    rw [this]; norm_num
  have e4 : m = -(1 - 2 ^ (-23:ℤ)) := by
    have h : m = nearest 24 (D * (1 - 2 ^ (-23:ℤ))) := p4
    rw [h, e3, neg_one_mul]
    exact nearest_exact (-(2 ^ 23 - 1)) (-23) (by norm_num) (by norm_num)
  have e5 : s = 2 ^ (-23:ℤ) := by
    have h : s = nearest 24 (ag + m) := p5
    rw [h, e1, e4, show (1:ℝ) + -(1 - 2 ^ (-23:ℤ)) = 2 ^ (-23:ℤ) by ring]
    exact nearest_exact 1 (-23) (by norm_num) (by norm_num)
  have e6 : e = -1 := by
    have h : e = nearest 24 (1.0 / -1) := p6
    rw [h, show (1.0:ℝ) / -1 = -1 by norm_num]
    exact nearest_exact (-1) 0 (by norm_num) (by norm_num)
  have e7 : r = 2 ^ 23 := by
    rw [hpow hr, e5, e6, Real.rpow_neg_one]; norm_num
  refine ⟨e7, ?_⟩
  rw [e7]
  unfold Utils.powerlaw_rvs
  rw [Real.one_rpow, Real.rpow_neg_one, show (1.0:ℝ) / -1 = -1 by norm_num, Real.rpow_neg_one]
  norm_num

/-- C152: the machine programs have results. -/
theorem C152_results_exist (M : Machine P A v ε) (hA : ∀ x, (A.rnd x).Nonempty) (hd : n ≤ d) (fw ft : Fin (n + 1) → ℝ) (z x a b g : ℝ) :
    (Rounded.get_filter_effective_wavelength A d fw ft z).Nonempty ∧
    (0 ≤ a → 0 ≤ b → 0 ≤ x → (Rounded.powerlaw_pdf A v x a b g).Nonempty) ∧
    (0 ≤ x → x ≤ 1 → 0 < a → a < b → 4.01 * drawCond x a b g * ε ≤ 1 → (Rounded.powerlaw_rvs A v x a b g).Nonempty) := by
  have hv := M.lib_nonneg
  refine ⟨?_, ?_, ?_⟩
  · obtain ⟨N, h1⟩ := trapezoid_nonempty hA ft fw hd
    obtain ⟨p, h2⟩ := vec_nonempty (fun i : Fin (n + 1) => hA (ft i * fw i))
    obtain ⟨S, h3⟩ := trapezoid_nonempty hA p fw hd
    exact ⟨_, N, h1, p, h2, S, h3, _, (hA _).some_mem, _, (hA _).some_mem, (hA _).some_mem⟩
  · intro ha hb hx
    exact ⟨_, _, (pow_nonempty hv ha g).some_mem, _, (pow_nonempty hv hb g).some_mem, _, (hA _).some_mem, _, (pow_nonempty hv hx _).some_mem,
      _, (hA _).some_mem, _, (hA _).some_mem, (hA _).some_mem⟩
  · intro h0 h1 ha hab hc
    obtain ⟨ag, p1⟩ := pow_nonempty hv ha.le g
    obtain ⟨bg, p2⟩ := pow_nonempty hv (ha.trans hab).le g
    obtain ⟨D, p3⟩ := hA (bg - ag)
    obtain ⟨m, p4⟩ := hA (D * x)
    obtain ⟨s, p5⟩ := hA (ag + m)
    obtain ⟨e, p6⟩ := hA (1.0 / g)
    have hS := draw_pos (g := g) ha hab h0 h1
    have h := (abs_le.1 (draw_arg M h0 h1 ha hab p1 p2 p3 p4 p5)).1
    have hs : 0 ≤ s := by
      have h' := mul_le_mul_of_nonneg_right hc hS.le
      have e : 4.01 * drawCond x a b g * ε * (a ^ g + (b ^ g - a ^ g) * x) = 4.01 * ε * (a ^ g + (a ^ g + b ^ g) * x) := by
        unfold drawCond; rw [show ∀ N S : ℝ, 4.01 * (N / S) * ε * S = 4.01 * ε * (N / S * S) from fun N S => by ring, div_mul_cancel₀ _ hS.ne']
      rw [e] at h'
      linarith
    obtain ⟨r, hr⟩ := pow_nonempty hv hs e
    exact ⟨r, ag, p1, bg, p2, D, p3, m, p4, s, p5, e, p6, hr⟩

lemma abs_log_range {x : ℝ} (h1 : 1e-8 ≤ x) (h2 : x ≤ 1e8) : |Real.log x| ≤ 20 := by
  have l10 := log10_bounds
  have hx : 0 < x := lt_of_lt_of_le (by norm_num) h1
  have a1 := Real.log_le_log (by norm_num) h1
  have a2 := Real.log_le_log hx h2
  rw [show (1e8:ℝ) = 10 ^ 8 by norm_num, Real.log_pow] at a2
  rw [show (1e-8:ℝ) = (10 ^ 8)⁻¹ by norm_num, Real.log_inv, Real.log_pow] at a1
  norm_num at l10 a1 a2
  rw [abs_le]
  constructor <;> linarith

/-- C152: **in double precision** (deviates in `[0,1]`, index at least 1/10, bounds between `10^-8` and `10^8`) draws are accurate
to `2e-13`; filters of up to 10000 samples have their effective wavelength to `2e-11`. -/
theorem C152_float64 (H : Float64 P A v) :
    (∀ {u a b g r : ℝ}, 0 ≤ u → u ≤ 1 → 1e-8 ≤ a → a < b → b ≤ 1e8 → 0.1 ≤ g → r ∈ Rounded.powerlaw_rvs A v u a b g →
      |r - Utils.powerlaw_rvs u a b g| ≤ 2e-13 * Utils.powerlaw_rvs u a b g) ∧
    (∀ {n d : ℕ} {fw ft : Fin (n + 1) → ℝ} {z r : ℝ}, d ≤ 10000 → Monotone fw → (∀ i, 0 ≤ fw i) → (∀ i, 0 ≤ ft i) → -1 < z →
      r ∈ Rounded.get_filter_effective_wavelength A d fw ft z →
      |r - Dust.get_filter_effective_wavelength fw ft z| ≤ 2e-11 * Dust.get_filter_effective_wavelength fw ft z) := by
  have M := H.machine
  constructor
  · intro u a b g r h0 h1 ha hab hb hg hr
    have ha0 : 0 < a := lt_of_lt_of_le (by norm_num) ha
    have hg0 : 0 < g := lt_of_lt_of_le (by norm_num) hg
    have hin := C16_powerlaw_rvs a b g u ha0 hab hg0.ne' h0 h1
    have hl := abs_log_range (ha.trans hin.1) (hin.2.1.trans hb)
    have hc : drawCost u a b g ≤ 148 := by
      unfold drawCost
      have : 12.6 / g ≤ 126 := by rw [div_le_iff₀ hg0]; norm_num at hg ⊢; linarith
      linarith
    have hp : 0 < Utils.powerlaw_rvs u a b g := ha0.trans_le hin.1
    refine (C152_powerlaw_draw M h0 h1 ha0 hab hg0 ?_ hr).trans (mul_le_mul_of_nonneg_right ?_ hp.le)
    · exact (mul_le_mul_of_nonneg_right hc (by positivity)).trans (by norm_num)
    · have := mul_le_mul_of_nonneg_right hc (show (0:ℝ) ≤ 2 ^ (-50:ℤ) by positivity)
      norm_num at this ⊢; linarith
  · intro n d fw ft z r hd hw h0 ht hz hr
    have hdr : (d:ℝ) ≤ 10000 := by exact_mod_cast hd
    have hL : 0 ≤ Dust.get_filter_effective_wavelength fw ft z := by
      unfold Dust.get_filter_effective_wavelength
      simp only
      have t1 : 0 ≤ Utils.trapz fw ft := by
        have := trapz_mono (y' := ft) hw (y := fun _ => (0:ℝ)) ht
        simpa [trapz_eq] using this
      have t2 : 0 ≤ Utils.trapz fw fun i => ft i * fw i := by
        have := trapz_mono (y' := fun i => ft i * fw i) hw (y := fun _ => (0:ℝ)) (fun i => mul_nonneg (ht i) (h0 i))
        simpa [trapz_eq] using this
      have : 0 < 1 + z := by linarith
      positivity
    refine (C152_effective_wavelength M hw h0 ht hz ?_ hr).trans (mul_le_mul_of_nonneg_right ?_ hL) <;> norm_num <;> linarith

/-! ### The hypotheses are met -/

example {r : ℝ} (hr : r ∈ Rounded.powerlaw_rvs f64 (2 ^ (-50:ℤ)) 0.3 2 7 1.5) := (C152_float64 float64_ieee).1 (by norm_num) (by norm_num) (by norm_num) (by norm_num)
  (by norm_num) (by norm_num) hr

example {r : ℝ} (hr : r ∈ Rounded.get_filter_effective_wavelength f64 3 caseFW caseFT 0.5) :=
  C152_effective_wavelength_in_band float64_ieee.machine (lo := 4000) (hi := 6000)
    (by intro i j h; fin_cases i <;> fin_cases j <;> simp [caseFW] at h ⊢ <;> norm_num) (by norm_num)
    (fun i => by fin_cases i <;> norm_num [caseFW]) (fun i => by fin_cases i <;> norm_num [caseFT])
    (by rw [trapz_eq]; simp [Fin.sum_univ_succ, caseFW, caseFT]; norm_num) (by norm_num) (by norm_num) hr

/-- a steeply falling law -/
example {r : ℝ} (hr : r ∈ Rounded.powerlaw_rvs f64 (2 ^ (-50:ℤ)) 0.3 1 10 (-2)) :
    |r - Utils.powerlaw_rvs 0.3 1 10 (-2)| ≤ 1.02 * drawCostNeg 0.3 1 10 (-2) * 2 ^ (-50:ℤ) * Utils.powerlaw_rvs 0.3 1 10 (-2) := by
  have hin := C16_powerlaw_rvs 1 10 (-2) 0.3 (by norm_num) (by norm_num) (by norm_num) (by norm_num) (by norm_num)
  have hl := abs_log_range (le_trans (by norm_num) hin.1) (hin.2.1.trans (by norm_num))
  refine C152_powerlaw_draw_negative float64_ieee.machine (by norm_num) (by norm_num) (by norm_num) (by norm_num) (by norm_num) ?_ ?_ hr
  · norm_num
  · have : drawCostNeg 0.3 1 10 (-2) ≤ 700 := by unfold drawCostNeg; norm_num at hl ⊢; linarith
    exact (mul_le_mul_of_nonneg_right this (by positivity)).trans (by norm_num)

/-- and its density -/
example {r : ℝ} (hr : r ∈ Rounded.powerlaw_pdf f64 (2 ^ (-50:ℤ)) 1 1 10 (-2)) :=
  C152_powerlaw_pdf float64_ieee.machine (by norm_num) (by norm_num) (by norm_num) (by norm_num) (by unfold pdfCost powCond; norm_num) hr

end Dsps.Props
