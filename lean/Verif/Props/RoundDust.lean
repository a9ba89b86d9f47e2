import Verif.Lemmas.NearE
import Verif.Props.RoundCosmoBits
import Verif.Props.Dust

/-! C129: floating-point accuracy of dust attenuation.  The programs are those of `Verif/Model/RoundedDust.lean`, the exact functions those of
`Verif/Model/Dust.lean`.  Errors are counted in roundings, as in C117. -/
namespace Dsps.Props
open Jnp Fl Spec Dsps.Lemmas

variable {P A : Arith} {v ε : ℝ}

/-- **Specification.**  The wavelength is not one of the few machine numbers next to the break points 0.15 and 0.63 of the curves, for which the
comparison with the rounded break point may come out differently. -/
def ClearOfBreaks (ε w : ℝ) : Prop := 2.1 * 0.15 * ε < |w - 0.15| ∧ 2.1 * 0.63 * ε < |w - 0.63|

/-- the sum of the absolute values of the terms of the Calzetti and Leitherer polynomials (an upper bound) -/
noncomputable def curveSize (w : ℝ) : ℝ := 9.8 + 4.1 / w + 0.53 / w ^ 2 + 0.03 / w ^ 3

lemma lit_lt_iff (M : Machine P A v ε) {b b' w : ℝ} (hb : 0 ≤ b) (hb' : b' ∈ Rounded.lit P A b) (hw : 2.1 * b * ε < |w - b|) :
    w < b' ↔ w < b := by
  have hε := M.eps_nonneg
  have h6 := M.small
  have h1 := (NearE.lit M.python M.jax hb' (by rw [abs_of_nonneg hb])).bound hε (by norm_num at h6 ⊢; linarith)
  norm_num at h1 hw
  have h2 := abs_le.1 h1
  have h3 : 0 ≤ b * ε := by positivity
  rcases le_or_gt b w with h | h
  · rw [abs_of_nonneg (by linarith)] at hw
    exact ⟨fun _ => by linarith, fun _ => by linarith⟩
  · rw [abs_of_neg (by linarith)] at hw
    exact ⟨fun _ => by linarith, fun _ => by linarith⟩

lemma rnd_abs' {u : ℝ} (hu : A.u ≤ u) {x r x0 e B : ℝ} (h : |x - x0| ≤ e) (hB : |x0| ≤ B) (hr : r ∈ A.rnd x) :
    |r - x0| ≤ e + u * (B + e) := by
  have h1 := A.rel _ _ hr
  have h2 : |x| ≤ B + e := by
    have := abs_add_le (x - x0) x0; rw [sub_add_cancel] at this; linarith
  have h3 : A.u * |x| ≤ u * (B + e) := mul_le_mul hu h2 (abs_nonneg _) (A.u_nonneg.trans hu)
  have := abs_add_le (r - x) (x - x0)
  rw [sub_add_sub_cancel] at this
  linarith

section curve
variable {w : ℝ}

lemma c00_blue_near (M : Machine P A v ε) {y y' r : ℝ} (hy0 : 0 ≤ y) (hy : NearE ε 1 y y' y) (hr : r ∈ Rounded.c00_blue P A y') :
    NearE ε 13 (2.659 * (2.156 + 1.509 * y + 0.198 * y ^ 2 + 0.011 * y ^ 3) + 4.05) r
      (2.659 * (-2.156 + 1.509 * y - 0.198 * y ^ 2 + 0.011 * y ^ 3) + 4.05) := by
  have hε := M.eps_nonneg
  obtain ⟨c0, h0, c1, h1, t1, ht1, s1, hs1, c2, h2, y2, hy2, t2, ht2, s2, hs2, c3, h3, y3, hy3, t3, ht3, s3, hs3, f, hf, p, hp, R, hR, hr⟩ := hr
  have n0 := NearE.negLit M.python M.jax h0 (M := 2.156) (by norm_num)
  have n1 := NearE.lit M.python M.jax h1 (M := 1.509) (by norm_num)
  have n2 := NearE.lit M.python M.jax h2 (M := 0.198) (by norm_num)
  have n3 := NearE.lit M.python M.jax h3 (M := 0.011) (by norm_num)
  have nf := NearE.lit M.python M.jax hf (M := 2.659) (by norm_num)
  have nR := NearE.lit M.python M.jax hR (M := 4.05) (by unfold Dust.RV_C00; norm_num)
  have m1 := (n1.mul hε hy).rnd M.jax ht1
  have a1 := (n0.add hε m1).rnd M.jax hs1
  have p2 := (hy.intPow M.jax hy2).2
  have m2 := (n2.mul hε p2).rnd M.jax ht2
  have a2 := (a1.sub hε m2).rnd M.jax hs2
  have p3 := (hy.intPow M.jax hy3).2
  have m3 := (n3.mul hε p3).rnd M.jax ht3
  have a3 := (a2.add hε m3).rnd M.jax hs3
  have m4 := (nf.mul hε a3).rnd M.jax hp
  exact (m4.add hε nR).rnd M.jax hr

lemma c00_red_near (M : Machine P A v ε) {y y' r : ℝ} (hy0 : 0 ≤ y) (hy : NearE ε 1 y y' y) (hr : r ∈ Rounded.c00_red P A y') :
    NearE ε 9 (2.659 * (1.857 + 1.040 * y) + 4.05) r (2.659 * (-1.857 + 1.040 * y) + 4.05) := by
  have hε := M.eps_nonneg
  obtain ⟨c0, h0, c1, h1, t1, ht1, s1, hs1, f, hf, p, hp, R, hR, hr⟩ := hr
  have n0 := NearE.negLit M.python M.jax h0 (M := 1.857) (by norm_num)
  have n1 := NearE.lit M.python M.jax h1 (M := 1.040) (by norm_num)
  have nf := NearE.lit M.python M.jax hf (M := 2.659) (by norm_num)
  have nR := NearE.lit M.python M.jax hR (M := 4.05) (by unfold Dust.RV_C00; norm_num)
  have m1 := (n1.mul hε hy).rnd M.jax ht1
  have a1 := (n0.add hε m1).rnd M.jax hs1
  have m4 := (nf.mul hε a1).rnd M.jax hp
  exact (m4.add hε nR).rnd M.jax hr

lemma inv_near (M : Machine P A v ε) (hw : 0 < w) {y : ℝ} (hy : y ∈ A.div 1 w) : NearE ε 1 (1 / w) y (1 / w) :=
  NearE.of_rnd M.jax hy (by rw [abs_of_pos (by positivity)])

lemma conv_mul_near (M : Machine P A v ε) {a m a' m' r : ℝ} (ha0 : 0 ≤ a) (hm0 : 0 ≤ m) (ha : a' ∈ P.rnd a) (hm : m' ∈ P.rnd m)
    (hr : r ∈ Rounded.conv A (P.mul a' m')) : NearE ε 4 (a * m) r (a * m) := by
  obtain ⟨p, hp, hr⟩ := hr
  have n1 := NearE.of_rnd M.python ha (by rw [abs_of_nonneg ha0])
  have n2 := NearE.of_rnd M.python hm (by rw [abs_of_nonneg hm0])
  exact ((n1.mul M.eps_nonneg n2).rnd M.python hp).rnd M.jax hr

lemma l02_near (M : Machine P A v ε) (hw : 0 < w) {r : ℝ} (hr : r ∈ Rounded.leitherer02_k_lambda P A w) :
    NearE ε 13 (5.472 + (0.671 * (1 / w) + 9.218 * 1e-3 * (1 / w) ^ 2 + 2.620 * 1e-3 * (1 / w) ^ 3)) r (Dust.leitherer02_k_lambda w) := by
  have hε := M.eps_nonneg
  obtain ⟨y, hy, c0, h0, c1, h1, t1, ht1, a2, ha2, m, hm, c2, hc2, y2, hy2, t2, ht2, s2, hs2, a3, ha3, c3, hc3, y3, hy3, t3, ht3, s3, hs3, hr⟩ := hr
  have ny := inv_near M hw hy
  have n0 := NearE.lit M.python M.jax h0 (M := 5.472) (by norm_num)
  have n1 := NearE.lit M.python M.jax h1 (M := 0.671) (by norm_num)
  have n2 := conv_mul_near M (by norm_num) (by norm_num) ha2 hm hc2
  have n3 := conv_mul_near M (by norm_num) (by norm_num) ha3 hm hc3
  have m1 := (n1.mul hε ny).rnd M.jax ht1
  have p2 := (ny.intPow M.jax hy2).2
  have m2 := (n2.mul hε p2).rnd M.jax ht2
  have q2 := (m1.sub hε m2).rnd M.jax hs2
  have p3 := (ny.intPow M.jax hy3).2
  have m3 := (n3.mul hε p3).rnd M.jax ht3
  have q3 := (q2.add hε m3).rnd M.jax hs3
  exact ((n0.add hε q3).rnd M.jax hr).mono hε (by norm_num) le_rfl

lemma c00_near (M : Machine P A v ε) (hw : 0 < w) (hc : 2.1 * 0.63 * ε < |w - 0.63|) {r : ℝ} (hr : r ∈ Rounded.calzetti00_k_lambda P A w) :
    NearE ε 13 (curveSize w) r (Dust.calzetti00_k_lambda w) := by
  have hε := M.eps_nonneg
  obtain ⟨y, hy, k1, hk1, k2, hk2, b, hb, hr⟩ := hr
  have ny := inv_near M hw hy
  have hy0 : 0 < 1 / w := by positivity
  have e := lit_lt_iff M (by norm_num) hb hc
  have q2 : 0 < (1 / w) ^ 2 := by positivity
  have q3 : 0 < (1 / w) ^ 3 := by positivity
  have ec : curveSize w = 9.8 + 4.1 * (1 / w) + 0.53 * (1 / w) ^ 2 + 0.03 * (1 / w) ^ 3 := by unfold curveSize; field_simp
  unfold Dust.calzetti00_k_lambda
  simp only [e] at hr
  simp only
  rw [hr, ec]
  generalize 1 / w = y0 at *
  split_ifs with h
  · refine (c00_blue_near M hy0.le ny hk1).mono hε le_rfl ?_
    norm_num; nlinarith
  · refine (c00_red_near M hy0.le ny hk2).mono hε (by norm_num) ?_
    norm_num; nlinarith

lemma curve_near (M : Machine P A v ε) (hw : 0 < w) (hc : ClearOfBreaks ε w) {r : ℝ} (hr : r ∈ Rounded.l02_below_c00_above P A w) :
    NearE ε 13 (curveSize w) r (Dust.l02_below_c00_above w) := by
  have hε := M.eps_nonneg
  obtain ⟨kc, hkc, kl, hkl, xc, hxc, hr⟩ := hr
  have e := lit_lt_iff M (by norm_num) hxc hc.1
  have hne : w ≠ xc := by
    intro h; subst h
    have hε := M.eps_nonneg
    have h6 := M.small
    have h1 := (NearE.lit M.python M.jax hxc (M := 0.15) (by norm_num)).bound hε (by norm_num at h6 ⊢; linarith)
    have := hc.1
    norm_num at h1 this; linarith
  have hne' : w ≠ 0.15 := by
    intro h; subst h
    have := hc.1
    rw [sub_self, abs_zero] at this
    norm_num at this; linarith
  have e' : (w > xc) ↔ w > 0.15 := by
    have := not_congr e
    rw [not_lt, not_lt] at this
    exact ⟨fun h => lt_of_le_of_ne (this.1 h.le) hne'.symm, fun h => lt_of_le_of_ne (this.2 h.le) hne.symm⟩
  unfold Dust.l02_below_c00_above
  simp only [e'] at hr
  simp only
  rw [hr]
  split_ifs with h
  · exact c00_near M hw hc.2 hkc
  · refine (l02_near M hw hkl).mono hε le_rfl ?_
    have ec : curveSize w = 9.8 + 4.1 * (1 / w) + 0.53 * (1 / w) ^ 2 + 0.03 * (1 / w) ^ 3 := by unfold curveSize; field_simp
    have hy0 : 0 < 1 / w := by positivity
    rw [ec]
    generalize 1 / w = y0 at *
    have q2 : 0 < y0 ^ 2 := by positivity
    have q3 : 0 < y0 ^ 3 := by positivity
    norm_num; linarith

/-- C129: the reddening curve (Leitherer 2002 below 0.15 micron, Calzetti 2000 above). -/
theorem C129_curve (M : Machine P A v ε) (hw : 0 < w) (hc : ClearOfBreaks ε w) {r : ℝ} (hr : r ∈ Rounded.l02_below_c00_above P A w) :
    |r - Dust.l02_below_c00_above w| ≤ 13.2 * ε * curveSize w := by
  have hε := M.eps_nonneg
  have h6 := M.small
  have n := curve_near M hw hc hr
  refine (n.bound hε (by norm_num at h6 ⊢; linarith)).trans (mul_le_mul_of_nonneg_right ?_ n.size_nonneg)
  norm_num; linarith

lemma plaw_close (M : Machine P A v ε) (hw : 0 < w) {s r : ℝ} (hr : r ∈ Rounded.power_law_vband_norm P A v w s) :
    Close ((3 * |s| + 1) * (1.001 * ε)) r (Dust.power_law_vband_norm w s) := by
  obtain ⟨vb, hvb, x, hx, hr⟩ := hr
  have c1 := lit_close M (by norm_num) hvb
  have c2 := ((Close.refl hw.le).div c1).rnd M.tolA hx
  have c3 := close_pow M.tolv (p := s) (p' := s) (e := 0) (by positivity) c2 (by simp) hr
  exact c3.mono (le_of_eq (by ring))

/-- how sensitive the bump is to rounding: distance of the squares relative to the width -/
noncomputable def bumpSize (w : ℝ) : ℝ := (w ^ 2 + 0.2175 ^ 2) / (w * 0.035)

/-- cost of the UV bump -/
noncomputable def bumpCost (w : ℝ) : ℝ := 18 + 6.4 * bumpSize w

/-- the profile of the bump for unit amplitude -/
noncomputable def bump1 (w : ℝ) : ℝ := w ^ 2 * 0.035 ^ 2 / ((w ^ 2 - 0.2175 ^ 2) ^ 2 + w ^ 2 * 0.035 ^ 2)

lemma bump_close (M : Machine P A v ε) (hw : 0 < w) (hK : bumpCost w * ε ≤ 0.0099) {x0 g x2 g2 num z2 d dd num' den r : ℝ}
    (hx0 : x0 ∈ Rounded.lit P A 0.2175) (hg : g ∈ Rounded.lit P A 0.035) (h1 : x2 ∈ A.mul w w) (h2 : g2 ∈ A.mul g g) (h3 : num ∈ A.mul x2 g2)
    (h4 : z2 ∈ A.mul x0 x0) (h5 : d ∈ A.sub x2 z2) (h6 : dd ∈ A.mul d d) (h7 : num' ∈ A.mul x2 g2) (h8 : den ∈ A.add dd num')
    (h9 : r ∈ A.div num den) : Close ((bumpCost w - 1) * (1.001 * ε)) r (bump1 w) := by
  have hε := M.eps_nonneg
  have hs := M.small
  have cx2 := ((Close.refl hw.le).mul (Close.refl hw.le)).rnd M.tolA h1
  have cg := lit_close M (by norm_num) hg
  have cg2 := (cg.mul cg).rnd M.tolA h2
  have cn := (cx2.mul cg2).rnd M.tolA h3
  have cn' := (cx2.mul cg2).rnd M.tolA h7
  have nx2 : NearE ε 1 (w * w) x2 (w * w) := NearE.of_rnd M.jax h1 (by rw [abs_of_pos (by positivity)])
  have nx0 := NearE.lit M.python M.jax hx0 (M := 0.2175) (by norm_num)
  have nz := (nx0.mul hε nx0).rnd M.jax h4
  have nd := (nx2.sub hε nz).rnd M.jax h5
  have bd := nd.bound hε (by norm_num at hs ⊢; linarith)
  -- the distance of the squares
  set c := bumpSize w with hc
  have hc0 : 0 < c := by rw [hc]; unfold bumpSize; positivity
  have hcm : w * w + 0.2175 * 0.2175 = c * (w * 0.035) := by
    rw [hc]; unfold bumpSize; rw [div_mul_cancel₀ _ (by positivity)]; ring
  have hcε : 6.4 * c * ε ≤ 0.0099 := by
    refine le_trans ?_ hK
    unfold bumpCost; rw [← hc]; norm_num; nlinarith
  rw [hcm] at bd
  set D := w * w - 0.2175 * 0.2175 with hD
  set G := w * 0.035 with hG
  have hG0 : 0 < G := by positivity
  set S := D ^ 2 + G ^ 2 with hS
  have hS0 : 0 < S := by positivity
  have bd' : |d - D| ≤ 6.06 * (c * ε) * G := by
    refine bd.trans (le_of_eq ?_); norm_num; ring
  have t0 : 0 ≤ c * ε := by positivity
  have t1 : c * ε ≤ 0.00155 := by norm_num at hcε ⊢; linarith
  -- the squared distance
  have bsq : |d ^ 2 + G ^ 2 - S| ≤ 6.13 * (c * ε) * S := by
    have e : d ^ 2 + G ^ 2 - S = (d - D) * (2 * D) + (d - D) ^ 2 := by rw [hS]; ring
    rw [e]
    refine (abs_add_le _ _).trans ?_
    rw [abs_mul, abs_of_nonneg (sq_nonneg (d - D)), ← sq_abs (d - D)]
    have u1 : |d - D| * |2 * D| ≤ 6.06 * (c * ε) * S := by
      have h2D : |2 * D| * G ≤ S := by
        rw [abs_mul, abs_two, hS, ← sq_abs D]; nlinarith [sq_nonneg (|D| - G)]
      calc |d - D| * |2 * D| ≤ 6.06 * (c * ε) * G * |2 * D| := by gcongr
        _ = 6.06 * (c * ε) * (|2 * D| * G) := by ring
        _ ≤ _ := by gcongr
    have u2 : |d - D| ^ 2 ≤ 0.07 * (c * ε) * S := by
      have hGS : G ^ 2 ≤ S := by rw [hS]; nlinarith [sq_nonneg D]
      calc |d - D| ^ 2 ≤ (6.06 * (c * ε) * G) ^ 2 := by gcongr
        _ = 36.7236 * (c * ε) * (c * ε) * G ^ 2 := by norm_num; ring
        _ ≤ 36.7236 * (c * ε) * 0.00155 * S := by gcongr
        _ ≤ 0.07 * (c * ε) * S := by
          have : 0 ≤ (c * ε) * S := by positivity
          norm_num; nlinarith
    norm_num at u1 u2 ⊢; linarith
  have cS : Close (1.02 * (6.13 * (c * ε))) (d ^ 2 + G ^ 2) S := Close.of_small hS0.le (by positivity) (by norm_num at t1 ⊢; linarith) bsq
  have cdd : Close (1.001 * ε) dd (d ^ 2) := by
    have := (Close.refl (sq_nonneg d)).rnd M.tolA (r := dd) (by rw [sq]; exact h6)
    exact this.mono (by linarith)
  have cn2 : Close (7 * (1.001 * ε)) num' (G ^ 2) := by
    have : w * w * (0.035 * 0.035) = G ^ 2 := by rw [hG]; ring
    rw [← this]; exact cn'.mono (by linarith)
  have cden := ((((cdd.mono (show 1.001 * ε ≤ 7 * (1.001 * ε) by linarith)).add cn2).rnd M.tolA h8).trans cS)
  have cr := (cn.div cden).rnd M.tolA h9
  have e : bump1 w = w * w * (0.035 * 0.035) / S := by
    unfold bump1; rw [hS, hD, hG]; norm_num; ring
  rw [e]
  refine cr.mono ?_
  unfold bumpCost
  rw [← hc]
  norm_num; linarith

lemma bump1_mem (hw : 0 < w) : 0 ≤ bump1 w ∧ bump1 w ≤ 1 := by
  unfold bump1
  refine ⟨by positivity, ?_⟩
  rw [div_le_one (by positivity)]
  nlinarith [sq_nonneg (w ^ 2 - 0.2175 ^ 2)]

lemma drude_err (M : Machine P A v ε) (hw : 0 < w) (hK : bumpCost w * ε ≤ 0.0099) {x0 g a r : ℝ}
    (hx0 : x0 ∈ Rounded.lit P A Dust.UV_BUMP_W0) (hg : g ∈ Rounded.lit P A Dust.UV_BUMP_DW) (hr : r ∈ Rounded.drude_bump A w x0 g a) :
    |r - Dust.drude_bump w Dust.UV_BUMP_W0 Dust.UV_BUMP_DW a| ≤ 1.03 * bumpCost w * ε * |a| ∧
    |Dust.drude_bump w Dust.UV_BUMP_W0 Dust.UV_BUMP_DW a| ≤ |a| := by
  have hε := M.eps_nonneg
  have hs := M.small
  obtain ⟨x2, h1, g2, h2, num, h3, z2, h4, d, h5, dd, h6, num', h7, den, h8, b, h9, hr⟩ := hr
  have c := bump_close M hw hK hx0 (by rw [show (0.035:ℝ) = Dust.UV_BUMP_DW by unfold Dust.UV_BUMP_DW; norm_num]; exact hg) h1 h2 h3 h4 h5 h6 h7 h8 h9
  have e : Dust.drude_bump w Dust.UV_BUMP_W0 Dust.UV_BUMP_DW a = a * bump1 w := by
    unfold Dust.drude_bump bump1 Dust.UV_BUMP_W0 Dust.UV_BUMP_DW; norm_num
  obtain ⟨b0, b1⟩ := bump1_mem hw
  have hcost : 18 ≤ bumpCost w := by unfold bumpCost bumpSize; norm_num; positivity
  have hb := M.rel c (by linarith) (by nlinarith)
  rw [e]
  have ha := abs_nonneg a
  constructor
  · have hr' := A.rel _ _ hr
    have t : |r - a * bump1 w| ≤ |r - a * b| + |a| * |b - bump1 w| := by
      have := abs_add_le (r - a * b) (a * (b - bump1 w))
      rw [show r - a * b + a * (b - bump1 w) = r - a * bump1 w by ring, abs_mul a (b - bump1 w)] at this
      exact this
    have hbb : |b| ≤ 1.02 := by
      have := abs_add_le (b - bump1 w) (bump1 w)
      rw [sub_add_cancel, abs_of_nonneg b0] at this
      have q : 1.02 * (bumpCost w - 1) * ε * bump1 w ≤ 1.02 * (bumpCost w - 1) * ε * 1 := by
        refine mul_le_mul_of_nonneg_left b1 (mul_nonneg (mul_nonneg (by norm_num) (by linarith)) hε)
      have q2 : 1.02 * (bumpCost w - 1) * ε ≤ 0.011 := by norm_num at hK ⊢; nlinarith
      norm_num at *; linarith
    have q : |b - bump1 w| ≤ 1.02 * (bumpCost w - 1) * ε := by
      refine hb.trans ?_
      have := mul_le_mul_of_nonneg_left b1 (mul_nonneg (mul_nonneg (show (0:ℝ) ≤ 1.02 by norm_num) (show 0 ≤ bumpCost w - 1 by linarith)) hε)
      linarith
    have t1 : A.u * |a * b| ≤ ε * (1.02 * |a|) := by
      rw [abs_mul]
      exact mul_le_mul M.jax (by nlinarith) (by positivity) hε
    have t2 : |a| * |b - bump1 w| ≤ |a| * (1.02 * (bumpCost w - 1) * ε) := mul_le_mul_of_nonneg_left q ha
    have t3 : 0 ≤ bumpCost w * ε * |a| := by positivity
    norm_num at *
    nlinarith
  · rw [abs_mul, abs_of_nonneg b0]; nlinarith

/-- error of the Noll et al. (2009) curve, in units of `ε` -/
noncomputable def nollErr (w a s : ℝ) : ℝ :=
  Dust.power_law_vband_norm w s * (14 * curveSize w + 1.1 * bumpCost w * |a| + (curveSize w + |a|) * (3.2 * |s| + 3.4))

/-- error of the Salim et al. (2018) curve, in units of `ε` -/
noncomputable def sblErr (w a s : ℝ) : ℝ :=
  Dust.power_law_vband_norm w s * curveSize w * (3.2 * |s| + 18) + |a| * (1.1 * bumpCost w + 1.2)

/-- multiplication of a perturbed number by a perturbed positive factor, with one rounding -/
lemma mul_err (M : Machine P A v ε) {k k' p p' e K q r : ℝ} (hk : |k' - k| ≤ e * ε) (hK : |k| ≤ K) (he : 0 ≤ e) (heK : e * ε ≤ 0.02 * K)
    (hp0 : 0 ≤ p) (hp : |p' - p| ≤ q * ε * p) (hq0 : 0 ≤ q) (hq : q * ε ≤ 0.0103) (hr : r ∈ A.mul k' p') :
    |r - k * p| ≤ (1.02 * e + K * (q + 1.04)) * ε * p := by
  have hε := M.eps_nonneg
  have hK0 : 0 ≤ K := (abs_nonneg _).trans hK
  have hr' := A.rel _ _ hr
  have hk' : |k'| ≤ 1.02 * K := by
    have := abs_add_le (k' - k) k; rw [sub_add_cancel] at this; norm_num at heK ⊢; linarith
  have hqp : q * ε * p ≤ 0.0103 * p := mul_le_mul_of_nonneg_right hq hp0
  have hp' : |p'| ≤ 1.0103 * p := by
    have := abs_add_le (p' - p) p; rw [sub_add_cancel, abs_of_nonneg hp0] at this; norm_num at hqp ⊢; linarith
  have t1 : A.u * |k' * p'| ≤ ε * (1.04 * (K * p)) := by
    rw [abs_mul]
    refine mul_le_mul M.jax ?_ (by positivity) hε
    refine (mul_le_mul hk' hp' (abs_nonneg _) (by positivity)).trans ?_
    have : 0 ≤ K * p := by positivity
    norm_num; linarith
  have t2 : |k' - k| * |p'| ≤ e * ε * (1.0103 * p) := mul_le_mul hk hp' (abs_nonneg _) (by positivity)
  have t3 : |k| * |p' - p| ≤ K * (q * ε * p) := mul_le_mul hK hp (abs_nonneg _) hK0
  have key : |r - k * p| ≤ |r - k' * p'| + (|k' - k| * |p'| + |k| * |p' - p|) := by
    have w1 := abs_add_le (r - k' * p') ((k' - k) * p' + k * (p' - p))
    have w2 := abs_add_le ((k' - k) * p') (k * (p' - p))
    rw [abs_mul, abs_mul] at w2
    rw [show r - k' * p' + ((k' - k) * p' + k * (p' - p)) = r - k * p by ring] at w1
    linarith
  refine key.trans ?_
  have t4 : 0 ≤ e * ε * p := by positivity
  norm_num at *
  nlinarith

lemma clip_err {x y e : ℝ} (h : |x - y| ≤ e) : |(if x < 0 then 0 else x) - (if y < 0 then 0 else y)| ≤ e := by
  have h1 := abs_le.1 h
  have e0 : 0 ≤ e := (abs_nonneg _).trans h
  split_ifs with h2 h3 h3
  · simpa using e0
  · rw [abs_le]; constructor <;> linarith
  · rw [abs_le]; constructor <;> linarith
  · exact h

lemma curveSize_pos (hw : 0 < w) : 9.8 ≤ curveSize w := by
  unfold curveSize
  have : 0 < 4.1 / w := by positivity
  have : 0 < 0.53 / w ^ 2 := by positivity
  have : 0 < 0.03 / w ^ 3 := by positivity
  linarith

lemma plaw_err (M : Machine P A v ε) (hw : 0 < w) {s p : ℝ} (hS : (3 * |s| + 1) * ε ≤ 0.0099) (hp : p ∈ Rounded.power_law_vband_norm P A v w s) :
    |p - Dust.power_law_vband_norm w s| ≤ (3.1 * |s| + 1.1) * ε * Dust.power_law_vband_norm w s ∧ 0 ≤ Dust.power_law_vband_norm w s ∧
      (3.1 * |s| + 1.1) * ε ≤ 0.0103 := by
  have hε := M.eps_nonneg
  have c := plaw_close M hw hp
  have h0 := abs_nonneg s
  have q := M.rel c (by linarith) hS
  refine ⟨q.trans (mul_le_mul_of_nonneg_right (mul_le_mul_of_nonneg_right ?_ hε) c.1), c.1, ?_⟩
  · norm_num; linarith
  · have : 0 ≤ |s| * ε := by positivity
    have h6 := M.small
    have e1 : (3.1 * |s| + 1.1) * ε = 3.1 * (|s| * ε) + 1.1 * ε := by ring
    have e2 : (3 * |s| + 1) * ε = 3 * (|s| * ε) + ε := by ring
    rw [e2] at hS
    rw [e1]
    norm_num at h6 hS ⊢
    linarith

/-- C129: the Noll et al. (2009) reddening curve. -/
theorem C129_noll09 (M : Machine P A v ε) (hw : 0 < w) (hc : ClearOfBreaks ε w) {a s r : ℝ} (hB : bumpCost w * ε ≤ 0.0099)
    (hS : (3 * |s| + 1) * ε ≤ 0.0099) (hr : r ∈ Rounded.noll09_k_lambda P A v w a s) :
    |r - Dust.noll09_k_lambda w a s| ≤ nollErr w a s * ε := by
  have hε := M.eps_nonneg
  have h6 := M.small
  obtain ⟨k0, hk0, x0, hx0, g, hg, b, hb, k1, hk1, p, hp, k2, hk2, rfl⟩ := hr
  have e0 := C129_curve M hw hc hk0
  have z0 := (curve_near M hw hc hk0).1
  obtain ⟨eb, zb⟩ := drude_err M hw hB hx0 hg hb
  obtain ⟨ep, zp, zq⟩ := plaw_err M hw hS hp
  have hC := curveSize_pos hw
  have hcost : 18 ≤ bumpCost w := by unfold bumpCost bumpSize; norm_num; positivity
  have ha := abs_nonneg a
  set C := curveSize w
  set B := bumpCost w
  set D := Dust.drude_bump w Dust.UV_BUMP_W0 Dust.UV_BUMP_DW a
  set Z := Dust.l02_below_c00_above w with hZ
  have e1 : |k0 + b - (Z + D)| ≤ (13.2 * C + 1.03 * B * |a|) * ε := by
    rw [add_sub_add_comm]
    refine (abs_add_le _ _).trans (by linarith)
  have zK : |Z + D| ≤ C + |a| := (abs_add_le _ _).trans (by linarith)
  have hsm : (13.2 * C + 1.03 * B * |a|) * ε ≤ 0.0103 * (C + |a|) := by
    have u1 : C * ε ≤ C * 1e-6 := mul_le_mul_of_nonneg_left h6 (by linarith)
    have u2 : B * ε * |a| ≤ 0.0099 * |a| := mul_le_mul_of_nonneg_right hB ha
    have e : (13.2 * C + 1.03 * B * |a|) * ε = 13.2 * (C * ε) + 1.03 * (B * ε * |a|) := by ring
    rw [e]
    norm_num at u1 u2 ⊢
    linarith
  have e2 := rnd_abs' M.jax e1 zK hk1
  have e3 : |k1 - (Z + D)| ≤ (13.2 * C + 1.03 * B * |a| + 1.02 * (C + |a|)) * ε := by
    refine e2.trans ?_
    have : ε * (C + |a| + (13.2 * C + 1.03 * B * |a|) * ε) ≤ ε * (1.02 * (C + |a|)) := by
      refine mul_le_mul_of_nonneg_left ?_ hε
      norm_num at hsm ⊢; linarith
    linarith
  have e4 := mul_err M e3 zK (by positivity) (by
    have u1 : (C + |a|) * ε ≤ (C + |a|) * 1e-6 := mul_le_mul_of_nonneg_left h6 (by linarith)
    have e : (13.2 * C + 1.03 * B * |a| + 1.02 * (C + |a|)) * ε = (13.2 * C + 1.03 * B * |a|) * ε + 1.02 * ((C + |a|) * ε) := by ring
    rw [e]
    norm_num at u1 hsm ⊢
    linarith) zp ep (by positivity) zq hk2
  unfold Dust.noll09_k_lambda
  simp only
  refine (clip_err e4).trans ?_
  have e5 : (1.02 * (13.2 * C + 1.03 * B * |a| + 1.02 * (C + |a|)) + (C + |a|) * (3.1 * |s| + 1.1 + 1.04))
      ≤ 14 * C + 1.1 * B * |a| + (C + |a|) * (3.2 * |s| + 3.4) := by
    have u1 : 0 ≤ B * |a| := by positivity
    have u2 : 0 ≤ (C + |a|) * |s| := by positivity
    norm_num at *; nlinarith
  unfold nollErr
  have := mul_le_mul_of_nonneg_right (mul_le_mul_of_nonneg_right e5 hε) zp
  calc _ ≤ _ := this
    _ = _ := by ring

/-- C129: the Salim et al. (2018) reddening curve. -/
theorem C129_sbl18 (M : Machine P A v ε) (hw : 0 < w) (hc : ClearOfBreaks ε w) {a s r : ℝ} (hB : bumpCost w * ε ≤ 0.0099)
    (hS : (3 * |s| + 1) * ε ≤ 0.0099) (hr : r ∈ Rounded.sbl18_k_lambda P A v w a s) :
    |r - Dust.sbl18_k_lambda w a s| ≤ sblErr w a s * ε := by
  have hε := M.eps_nonneg
  have h6 := M.small
  obtain ⟨k0, hk0, p, hp, k1, hk1, x0, hx0, g, hg, b, hb, k2, hk2, rfl⟩ := hr
  have e0 := C129_curve M hw hc hk0
  have z0 := (curve_near M hw hc hk0).1
  obtain ⟨eb, zb⟩ := drude_err M hw hB hx0 hg hb
  obtain ⟨ep, zp, zq⟩ := plaw_err M hw hS hp
  have hC := curveSize_pos hw
  have hcost : 18 ≤ bumpCost w := by unfold bumpCost bumpSize; norm_num; positivity
  have ha := abs_nonneg a
  set C := curveSize w
  set B := bumpCost w
  set D := Dust.drude_bump w Dust.UV_BUMP_W0 Dust.UV_BUMP_DW a
  set Z := Dust.l02_below_c00_above w with hZ
  set V := Dust.power_law_vband_norm w s with hV
  have hCV : 0 ≤ C * V := mul_nonneg (by linarith) zp
  have e0' : |k0 - Z| ≤ (13.2 * C) * ε := by linarith
  have u1 : C * ε ≤ C * 1e-6 := mul_le_mul_of_nonneg_left h6 (by linarith)
  have e1 := mul_err M e0' z0 (by positivity) (by norm_num at *; linarith) zp ep (by positivity) zq hk1
  have e2 : |k1 - Z * V| ≤ (3.1 * |s| + 15.7) * ε * (C * V) := by
    refine e1.trans ?_
    have : (1.02 * (13.2 * C) + C * (3.1 * |s| + 1.1 + 1.04)) ≤ (3.1 * |s| + 15.7) * C := by norm_num; nlinarith
    have := mul_le_mul_of_nonneg_right (mul_le_mul_of_nonneg_right this hε) zp
    calc _ ≤ _ := this
      _ = _ := by ring
  have zZV : |Z * V| ≤ C * V := by rw [abs_mul, abs_of_nonneg zp]; exact mul_le_mul_of_nonneg_right z0 zp
  have e3 : |k1 + b - (Z * V + D)| ≤ (3.1 * |s| + 15.7) * ε * (C * V) + 1.03 * B * ε * |a| := by
    rw [add_sub_add_comm]
    exact (abs_add_le _ _).trans (by linarith)
  have zK : |Z * V + D| ≤ C * V + |a| := (abs_add_le _ _).trans (by linarith)
  have hsm : (3.1 * |s| + 15.7) * ε * (C * V) + 1.03 * B * ε * |a| ≤ 0.011 * (C * V + |a|) := by
    have u2 : B * ε * |a| ≤ 0.0099 * |a| := mul_le_mul_of_nonneg_right hB ha
    have u3 : (3.1 * |s| + 15.7) * ε ≤ 0.011 := by
      have e1 : (3.1 * |s| + 15.7) * ε = 3.1 * (|s| * ε) + 15.7 * ε := by ring
      have e2 : (3 * |s| + 1) * ε = 3 * (|s| * ε) + ε := by ring
      rw [e2] at hS
      rw [e1]
      norm_num at h6 hS ⊢
      linarith
    have u4 := mul_le_mul_of_nonneg_right u3 hCV
    have e : 1.03 * B * ε * |a| = 1.03 * (B * ε * |a|) := by ring
    rw [e]
    norm_num at u2 u4 ⊢
    linarith
  have e4 := rnd_abs' M.jax e3 zK hk2
  unfold Dust.sbl18_k_lambda
  simp only
  refine (clip_err e4).trans ?_
  have u5 : ε * (C * V + |a| + ((3.1 * |s| + 15.7) * ε * (C * V) + 1.03 * B * ε * |a|)) ≤ ε * (1.02 * (C * V + |a|)) := by
    refine mul_le_mul_of_nonneg_left ?_ hε
    norm_num at hsm ⊢; linarith
  have u6 : 0 ≤ B * ε * |a| := by positivity
  have u7 : 0 ≤ ε * (C * V) := by positivity
  have u8 : 0 ≤ |s| * (ε * (C * V)) := by positivity
  have u9 : 0 ≤ ε * |a| := by positivity
  unfold sblErr
  have e : (V * C * (3.2 * |s| + 18) + |a| * (1.1 * B + 1.2)) * ε
      = 3.2 * (|s| * (ε * (C * V))) + 18 * (ε * (C * V)) + 1.1 * (B * ε * |a|) + 1.2 * (ε * |a|) := by ring
  rw [e]
  have e' : (3.1 * |s| + 15.7) * ε * (C * V) + 1.03 * B * ε * |a| = 3.1 * (|s| * (ε * (C * V))) + 15.7 * (ε * (C * V)) + 1.03 * (B * ε * |a|) := by
    ring
  rw [e'] at u5 ⊢
  norm_num at *; linarith

end curve

section transmission

lemma close_exp10 (M : Machine P A v ε) {x x' e r : ℝ} (h : |x' - x| ≤ e) (hr : r ∈ Rounded.exp10 v x') :
    Close (Real.log 10 * e + 1.001 * ε) r ((10 : ℝ) ^ x) := by
  have p1 : (0:ℝ) < 10 ^ x' := by positivity
  have p2 : (0:ℝ) < 10 ^ x := by positivity
  have c1 : Close (1.001 * ε) r ((10 : ℝ) ^ x') := Close.of_rel M.tolv p1.le hr
  have l10 : 0 ≤ Real.log 10 := Real.log_nonneg (by norm_num)
  have c2 : Close (Real.log 10 * e) ((10 : ℝ) ^ x') ((10 : ℝ) ^ x) := by
    refine Close.of_log p2 p1 ?_
    rw [Real.log_rpow (by norm_num), Real.log_rpow (by norm_num), ← sub_mul, abs_mul, abs_of_nonneg l10, mul_comm]
    exact mul_le_mul_of_nonneg_left h l10
  exact (c1.trans c2).mono (by linarith)

/-- mixing with the unobscured fraction does not increase the relative error -/
lemma close_floor {f δ t t' : ℝ} (h0 : 0 ≤ f) (h1 : f ≤ 1) (hδ : 0 ≤ δ) (h : Close δ t' t) : Close δ (f + (1 - f) * t') (f + (1 - f) * t) := by
  have c := (Close.refl (show 0 ≤ 1 - f by linarith)).mul h
  rw [zero_add] at c
  exact ((Close.refl h0).mono hδ).add c

lemma att_close (M : Machine P A v ε) {k av r : ℝ} (hk : 0 ≤ k) (hav : 0 ≤ av) (hr : r ∈ Rounded.att_curve_from_k_lambda P A k av) :
    Close (4 * (1.001 * ε)) r (Dust.att_curve_from_k_lambda k av) := by
  obtain ⟨p, hp, R, hR, a, ha, rfl⟩ := hr
  have c0 : Close _ p _ := (Close.refl (mul_nonneg hav hk)).rnd M.tolA hp
  have cR := lit_close M (by unfold Dust.RV_C00; norm_num) hR
  have ca := (c0.div cR).rnd M.tolA ha
  have h1 : ¬ (a < 0) := not_lt.2 ca.nonneg
  have h2 : ¬ (av * k / Dust.RV_C00 < 0) := not_lt.2 ca.1
  unfold Dust.att_curve_from_k_lambda
  simp only [h1, h2, if_false]
  exact ca.mono (le_of_eq (by ring))

lemma trans_close (M : Machine P A v ε) {k av f r : ℝ} (hk : 0 ≤ k) (hav : 0 ≤ av) (h0 : 0 ≤ f) (h1 : f ≤ 1)
    (hr : r ∈ Rounded.frac_transmission_from_k_lambda P A v k av f) :
    Close ((6.53 * Dust.att_curve_from_k_lambda k av + 4.01) * ε) r (Dust.frac_transmission_from_k_lambda k av f) := by
  have hε := M.eps_nonneg
  have h6 := M.small
  have l10 := log10_bounds
  obtain ⟨a, ha, c, ⟨q0, hq0, hc⟩, m, hm, t, ht, g, hg, q, hq, hr⟩ := hr
  have ca := att_close M hk hav ha
  set Al := Dust.att_curve_from_k_lambda k av with hAl
  have hq1 : Close (1.001 * ε) q0 0.4 := ((Close.refl (by norm_num)).rnd M.tolP hq0).mono (by linarith)
  -- the exponent
  have n0 := NearE.negLit M.python M.jax (⟨q0, hq0, hc⟩ : c ∈ Rounded.negLit P A 0.4) (M := 0.4) (by norm_num)
  have na : |a - Al| ≤ 4.05 * ε * Al := by
    have := ca.rel (by linarith) (by norm_num at h6 ⊢; linarith)
    refine this.trans (mul_le_mul_of_nonneg_right ?_ ca.1)
    norm_num; linarith
  have nc := n0.bound hε (by norm_num at h6 ⊢; linarith)
  have hAl0 := ca.1
  have em : |m - (-0.4 * Al)| ≤ 2.834 * ε * Al := by
    have hr := A.rel _ _ hm
    have hc' : |c| ≤ 0.401 := by
      have h := abs_le.1 nc
      norm_num at h h6 ⊢
      rw [abs_le]; constructor <;> linarith
    have ha' : |a| ≤ 1.001 * Al := by
      have := abs_add_le (a - Al) Al
      rw [sub_add_cancel, abs_of_nonneg hAl0] at this
      have : 4.05 * ε * Al ≤ 0.001 * Al := mul_le_mul_of_nonneg_right (by norm_num at h6 ⊢; linarith) hAl0
      norm_num at *; linarith
    have t1 : A.u * |c * a| ≤ ε * (0.4015 * Al) := by
      rw [abs_mul]
      refine mul_le_mul M.jax ((mul_le_mul hc' ha' (abs_nonneg _) (by norm_num)).trans ?_) (by positivity) hε
      rw [← mul_assoc]; exact mul_le_mul_of_nonneg_right (by norm_num) hAl0
    have t2 : |c| * |a - Al| ≤ 0.401 * (4.05 * ε * Al) := mul_le_mul hc' na (abs_nonneg _) (by norm_num)
    have t3 : |c - (-0.4)| * Al ≤ (1.01 * ((2:ℕ):ℝ) * ε * 0.4) * Al := mul_le_mul_of_nonneg_right nc hAl0
    have w1 := abs_add_le (m - c * a) (c * (a - Al) + (c - (-0.4)) * Al)
    have w2 := abs_add_le (c * (a - Al)) ((c - (-0.4)) * Al)
    rw [abs_mul, abs_mul _ Al, abs_of_nonneg hAl0] at w2
    rw [show m - c * a + (c * (a - Al) + (c - (-0.4)) * Al) = m - (-0.4 * Al) by ring] at w1
    have hx : 0 ≤ ε * Al := by positivity
    refine (w1.trans (add_le_add hr w2)).trans ?_
    refine (add_le_add t1 (add_le_add t2 t3)).trans ?_
    have : ε * (0.4015 * Al) + (0.401 * (4.05 * ε * Al) + (1.01 * ((2:ℕ):ℝ) * ε * 0.4) * Al) = (0.4015 + 0.401 * 4.05 + 1.01 * 2 * 0.4) * (ε * Al) := by
      push_cast; ring
    rw [this, show 2.834 * ε * Al = 2.834 * (ε * Al) by ring]
    exact mul_le_mul_of_nonneg_right (by norm_num) hx
  have ct := close_exp10 M em ht
  have cg := (Close.refl (show 0 ≤ 1 - f by linarith)).rnd M.tolA hg
  have cq := (cg.mul ct).rnd M.tolA hq
  have hE : 0 ≤ Real.log 10 * (2.834 * ε * Al) := by
    have : 0 ≤ Real.log 10 := by linarith [l10.1]
    positivity
  have cs := (((Close.refl h0).mono (by linarith)).add cq).rnd M.tolA hr
  have e : Dust.frac_transmission_from_k_lambda k av f = f + (1 - f) * (10 : ℝ) ^ (-0.4 * Al) := rfl
  rw [e]
  refine cs.mono ?_
  have : Real.log 10 * (2.834 * ε * Al) ≤ 2.303 * (2.834 * ε * Al) := mul_le_mul_of_nonneg_right l10.2 (by positivity)
  have hx : 0 ≤ ε * Al := by positivity
  rw [show 2.303 * (2.834 * ε * Al) = (2.303 * 2.834) * (ε * Al) by ring] at this
  rw [show (6.53 * Al + 4.01) * ε = 6.53 * (ε * Al) + 4.01 * ε by ring]
  norm_num at this ⊢
  linarith

/-- C129: the transmitted fraction for a given reddening curve value. -/
theorem C129_transmission (M : Machine P A v ε) {k av f r : ℝ} (hk : 0 ≤ k) (hav : 0 ≤ av) (h0 : 0 ≤ f) (h1 : f ≤ 1)
    (hsmall : (6.6 * Dust.att_curve_from_k_lambda k av + 4.1) * ε ≤ 0.0099) (hr : r ∈ Rounded.frac_transmission_from_k_lambda P A v k av f) :
    |r - Dust.frac_transmission_from_k_lambda k av f|
      ≤ (6.6 * Dust.att_curve_from_k_lambda k av + 4.1) * ε * Dust.frac_transmission_from_k_lambda k av f := by
  have hε := M.eps_nonneg
  have c := trans_close M hk hav h0 h1 hr
  set Al := Dust.att_curve_from_k_lambda k av with hAl
  have hA0 : 0 ≤ Al := by rw [hAl]; unfold Dust.att_curve_from_k_lambda; simp only; split_ifs with h <;> [exact le_rfl; exact not_lt.1 h]
  have hx : 0 ≤ Al * ε := by positivity
  have d0 : 0 ≤ (6.53 * Al + 4.01) * ε := by positivity
  have d1 : (6.53 * Al + 4.01) * ε ≤ 1 / 100 := by
    have : (6.53 * Al + 4.01) * ε ≤ (6.6 * Al + 4.1) * ε := mul_le_mul_of_nonneg_right (by linarith) hε
    norm_num at *; linarith
  refine (c.rel d0 d1).trans (mul_le_mul_of_nonneg_right ?_ c.1)
  nlinarith

lemma att_nonneg (k av : ℝ) : 0 ≤ Dust.att_curve_from_k_lambda k av := by
  unfold Dust.att_curve_from_k_lambda
  simp only
  split_ifs with h <;> [exact le_rfl; exact not_lt.1 h]

lemma att_lipschitz {k k' av e : ℝ} (hav : 0 ≤ av) (h : |k' - k| ≤ e) :
    |Dust.att_curve_from_k_lambda k' av - Dust.att_curve_from_k_lambda k av| ≤ av * e / 4.05 := by
  unfold Dust.att_curve_from_k_lambda Dust.RV_C00
  refine clip_err ?_
  rw [← sub_div, ← mul_sub, abs_div, abs_mul, abs_of_nonneg hav, abs_of_pos (by norm_num : (0:ℝ) < 4.05)]
  gcongr

/-- C129: the transmitted fraction when the curve itself is known up to `e`. -/
theorem C129_transmission_of_curve (M : Machine P A v ε) {k k' av f r e : ℝ} (hk : 0 ≤ k') (hav : 0 ≤ av) (h0 : 0 ≤ f) (h1 : f ≤ 1)
    (he : |k' - k| ≤ e) (hsmall : (6.6 * Dust.att_curve_from_k_lambda k av + 4.1) * ε + 0.23 * av * e ≤ 0.0099)
    (hr : r ∈ Rounded.frac_transmission_from_k_lambda P A v k' av f) :
    |r - Dust.frac_transmission_from_k_lambda k av f|
      ≤ ((6.6 * Dust.att_curve_from_k_lambda k av + 4.1) * ε + 0.23 * av * e) * Dust.frac_transmission_from_k_lambda k av f := by
  have hε := M.eps_nonneg
  have h6 := M.small
  have l10 := log10_bounds
  have he0 : 0 ≤ e := (abs_nonneg _).trans he
  have hL := att_lipschitz hav he
  have c := trans_close M hk hav h0 h1 hr
  have hA0 := att_nonneg k av
  set Al := Dust.att_curve_from_k_lambda k av with hAl
  set Al' := Dust.att_curve_from_k_lambda k' av with hAl'
  set Δ := av * e / 4.05 with hΔ
  have hΔ0 : 0 ≤ Δ := by rw [hΔ]; positivity
  have hΔe : av * e = 4.05 * Δ := by rw [hΔ]; field_simp
  have c2 : Close (0.9213 * Δ) (Dust.frac_transmission_from_k_lambda k' av f) (Dust.frac_transmission_from_k_lambda k av f) := by
    show Close _ (f + (1 - f) * (10 : ℝ) ^ (-0.4 * Al')) (f + (1 - f) * (10 : ℝ) ^ (-0.4 * Al))
    refine close_floor h0 h1 (by positivity) ?_
    refine Close.of_log (by positivity) (by positivity) ?_
    rw [Real.log_rpow (by norm_num), Real.log_rpow (by norm_num), ← sub_mul, ← mul_sub, abs_mul, abs_mul]
    have p10 : 0 ≤ Real.log 10 := by linarith [l10.1]
    rw [abs_of_nonneg p10]
    have : |(-0.4:ℝ)| * |Al' - Al| * Real.log 10 ≤ 0.4 * Δ * 2.303 := by
      refine mul_le_mul (mul_le_mul (by norm_num) hL (abs_nonneg _) (by norm_num)) l10.2 p10 (by positivity)
    norm_num at this ⊢; linarith
  have hA' : Al' ≤ Al + Δ := by have := (abs_le.1 hL).2; linarith
  have e1 : (6.53 * Al' + 4.01) * ε ≤ (6.53 * Al + 4.01) * ε + 6.53 * Δ * 1e-6 := by
    have a1 : (6.53 * Al' + 4.01) * ε ≤ (6.53 * (Al + Δ) + 4.01) * ε := mul_le_mul_of_nonneg_right (by linarith) hε
    have a2 : 6.53 * Δ * ε ≤ 6.53 * Δ * 1e-6 := mul_le_mul_of_nonneg_left h6 (by positivity)
    linarith
  have c3 := (c.trans c2).mono (δ' := (6.53 * Al + 4.01) * ε + 0.9214 * Δ) (by norm_num at e1 ⊢; linarith)
  have hx : 0 ≤ Al * ε := by positivity
  rw [show 0.23 * av * e = 0.23 * (av * e) by ring, hΔe] at hsmall ⊢
  rw [show (6.6 * Al + 4.1) * ε = 6.6 * (Al * ε) + 4.1 * ε by ring] at hsmall ⊢
  rw [show (6.53 * Al + 4.01) * ε = 6.53 * (Al * ε) + 4.01 * ε by ring] at c3
  refine (c3.rel (by positivity) (by norm_num at hsmall ⊢; linarith)).trans (mul_le_mul_of_nonneg_right ?_ c3.1)
  norm_num; linarith

lemma noll_nonneg {w a s k : ℝ} (hk : k ∈ Rounded.noll09_k_lambda P A v w a s) : 0 ≤ k := by
  obtain ⟨k0, -, x0, -, g, -, b, -, k1, -, p, -, k2, -, rfl⟩ := hk
  split_ifs with h <;> [exact le_rfl; exact not_lt.1 h]

lemma sbl_nonneg {w a s k : ℝ} (hk : k ∈ Rounded.sbl18_k_lambda P A v w a s) : 0 ≤ k := by
  obtain ⟨k0, -, p, -, k1, -, x0, -, g, -, b, -, k2, -, rfl⟩ := hk
  split_ifs with h <;> [exact le_rfl; exact not_lt.1 h]

/-- C129: the whole chain, from the wavelength and the dust parameters to the transmitted fraction, for the Noll et al. curve: every step in machine
arithmetic, compared with exact arithmetic. -/
theorem C129_noll09_transmission (M : Machine P A v ε) {w : ℝ} (hw : 0 < w) (hc : ClearOfBreaks ε w) {a s k av f r : ℝ}
    (hB : bumpCost w * ε ≤ 0.0099) (hS : (3 * |s| + 1) * ε ≤ 0.0099) (hav : 0 ≤ av) (h0 : 0 ≤ f) (h1 : f ≤ 1)
    (hsmall : (6.6 * Dust.noll09_k_att_curve w av a s + 4.1 + 0.23 * av * nollErr w a s) * ε ≤ 0.0099)
    (hk : k ∈ Rounded.noll09_k_lambda P A v w a s) (hr : r ∈ Rounded.frac_transmission_from_k_lambda P A v k av f) :
    |r - Dust.frac_transmission_from_k_lambda (Dust.noll09_k_lambda w a s) av f|
      ≤ (6.6 * Dust.noll09_k_att_curve w av a s + 4.1 + 0.23 * av * nollErr w a s) * ε
        * Dust.frac_transmission_from_k_lambda (Dust.noll09_k_lambda w a s) av f := by
  have e : (6.6 * Dust.noll09_k_att_curve w av a s + 4.1 + 0.23 * av * nollErr w a s) * ε
      = (6.6 * Dust.att_curve_from_k_lambda (Dust.noll09_k_lambda w a s) av + 4.1) * ε + 0.23 * av * (nollErr w a s * ε) := by
    unfold Dust.noll09_k_att_curve; ring
  rw [e] at hsmall ⊢
  exact C129_transmission_of_curve M (noll_nonneg hk) hav h0 h1 (C129_noll09 M hw hc hB hS hk) hsmall hr

/-- C129: the same for the Salim et al. curve. -/
theorem C129_sbl18_transmission (M : Machine P A v ε) {w : ℝ} (hw : 0 < w) (hc : ClearOfBreaks ε w) {a s k av f r : ℝ}
    (hB : bumpCost w * ε ≤ 0.0099) (hS : (3 * |s| + 1) * ε ≤ 0.0099) (hav : 0 ≤ av) (h0 : 0 ≤ f) (h1 : f ≤ 1)
    (hsmall : (6.6 * Dust.sbl18_k_att_curve w av a s + 4.1 + 0.23 * av * sblErr w a s) * ε ≤ 0.0099)
    (hk : k ∈ Rounded.sbl18_k_lambda P A v w a s) (hr : r ∈ Rounded.frac_transmission_from_k_lambda P A v k av f) :
    |r - Dust.frac_transmission_from_k_lambda (Dust.sbl18_k_lambda w a s) av f|
      ≤ (6.6 * Dust.sbl18_k_att_curve w av a s + 4.1 + 0.23 * av * sblErr w a s) * ε
        * Dust.frac_transmission_from_k_lambda (Dust.sbl18_k_lambda w a s) av f := by
  have e : (6.6 * Dust.sbl18_k_att_curve w av a s + 4.1 + 0.23 * av * sblErr w a s) * ε
      = (6.6 * Dust.att_curve_from_k_lambda (Dust.sbl18_k_lambda w a s) av + 4.1) * ε + 0.23 * av * (sblErr w a s * ε) := by
    unfold Dust.sbl18_k_att_curve; ring
  rw [e] at hsmall ⊢
  exact C129_transmission_of_curve M (sbl_nonneg hk) hav h0 h1 (C129_sbl18 M hw hc hB hS hk) hsmall hr

/-- numbers below `1 + 2^-p` round to at most 1 -/
lemma nearest_le_one {p : ℕ} (hp : 1 ≤ p) {x : ℝ} (hx : x < 1 + (1 / 2) ^ p) : nearest p x ≤ 1 := by
  have key : ∀ y : ℝ, 1 ≤ y → y < 1 + (1 / 2) ^ p → nearest p y = 1 := by
    intro y h1 h2
    have hpow : ((1:ℝ) / 2) ^ p ≤ 1 / 2 := by
      calc ((1:ℝ) / 2) ^ p ≤ (1 / 2) ^ 1 := pow_le_pow_of_le_one (by norm_num) (by norm_num) hp
        _ = _ := by norm_num
    have hlog : Int.log 2 |y| = 0 := by
      rw [abs_of_pos (by linarith)]
      apply le_antisymm
      · have : Int.log 2 y < 1 := by
          rw [← Int.lt_zpow_iff_log_lt (by norm_num) (by linarith)]; norm_num; linarith
        omega
      · rw [← Int.zpow_le_iff_le_log (by norm_num) (by linarith)]; norm_num; exact h1
    have hq : quantum p y * 2 ^ (p - 1) = 1 := by rw [quantum_mul' hp, hlog]; norm_num
    have hq0 := quantum_pos p y
    have hN : (0:ℝ) < 2 ^ (p - 1) := by positivity
    have hqi : quantum p y = (2 ^ (p - 1) : ℝ)⁻¹ := eq_inv_of_mul_eq_one_left hq
    have hhalf : ((1:ℝ) / 2) ^ p * 2 ^ (p - 1) = 1 / 2 := by
      obtain ⟨q, rfl⟩ : ∃ q, p = q + 1 := ⟨p - 1, by omega⟩
      rw [Nat.add_sub_cancel, pow_succ, mul_right_comm, ← mul_pow]; norm_num
    have hr : round (y / quantum p y) = (2 ^ (p - 1) : ℤ) := by
      rw [round_eq, Int.floor_eq_iff, hqi, div_inv_eq_mul]
      push_cast
      constructor
      · nlinarith
      · nlinarith
    unfold nearest
    rw [hr]; push_cast; rw [mul_comm]; exact hq
  rcases le_or_gt 1 x with h | h
  · exact (key x h hx).le
  · calc nearest p x ≤ nearest p 1 := nearest_mono hp h.le
      _ = 1 := key 1 le_rfl (by linarith [show (0:ℝ) < (1 / 2) ^ p by positivity])

/-- C129: rounding never makes the transmitted fraction leave the interval from the unobscured fraction to one. -/
theorem C129_transmission_in_range {p : ℕ} (hp : 1 ≤ p) {f t g q out : ℝ} (hf : nearest p f = f) (h0 : 0 ≤ f) (h1 : f ≤ 1) (ht0 : 0 ≤ t) (ht1 : t ≤ 1)
    (hg : g ∈ (binary p hp).sub 1 f) (hq : q ∈ (binary p hp).mul g t) (hout : out ∈ (binary p hp).add f q) : f ≤ out ∧ out ≤ 1 := by
  obtain rfl : g = nearest p (1 - f) := hg
  obtain rfl : q = nearest p (nearest p (1 - f) * t) := hq
  obtain rfl : out = nearest p (f + nearest p (nearest p (1 - f) * t)) := hout
  have g0 : 0 ≤ nearest p (1 - f) := by
    have := nearest_mono hp (show (0:ℝ) ≤ 1 - f by linarith); rwa [nearest_zero] at this
  have q0 : 0 ≤ nearest p (nearest p (1 - f) * t) := by
    have := nearest_mono hp (mul_nonneg g0 ht0); rwa [nearest_zero] at this
  refine ⟨?_, nearest_le_one hp ?_⟩
  · calc f = nearest p f := hf.symm
      _ ≤ _ := nearest_mono hp (by linarith)
  · have q1 : nearest p (nearest p (1 - f) * t) ≤ nearest p (1 - f) := by
      calc _ ≤ nearest p (nearest p (1 - f)) := nearest_mono hp (mul_le_of_le_one_right g0 ht1)
        _ = _ := nearest_idem hp _
    have pp : (0:ℝ) < (1 / 2) ^ p := by positivity
    rcases eq_or_lt_of_le h0 with h | h
    · subst h
      rw [sub_zero] at q1
      have := nearest_le_one hp (x := 1) (by linarith)
      rw [sub_zero]
      linarith
    · have := abs_le.1 (nearest_rel hp (1 - f))
      rw [abs_of_nonneg (by linarith : 0 ≤ 1 - f)] at this
      nlinarith

/-- The machine programs have results: the theorems above are not about empty sets. -/
theorem C129_results_exist (hv : 0 ≤ v) (hA : ∀ x, (A.rnd x).Nonempty) (hP : ∀ x, (P.rnd x).Nonempty) {w : ℝ} (hw : 0 < w)
    (hB : ∀ x ∈ Rounded.lit P A 0.55, 0 < x) (hA0 : ∀ x > 0, ∀ r ∈ A.rnd x, 0 < r) (a s k av f : ℝ) :
    (Rounded.noll09_k_lambda P A v w a s).Nonempty ∧ (Rounded.sbl18_k_lambda P A v w a s).Nonempty ∧
    (Rounded.frac_transmission_from_k_lambda P A v k av f).Nonempty := by
  have hlit : ∀ x, (Rounded.lit P A x).Nonempty := fun x => by
    obtain ⟨p, hp⟩ := hP x; obtain ⟨q, hq⟩ := hA p; exact ⟨q, p, hp, hq⟩
  have hneg : ∀ x, (Rounded.negLit P A x).Nonempty := fun x => by
    obtain ⟨p, hp⟩ := hP x; obtain ⟨q, hq⟩ := hA (-p); exact ⟨q, p, hp, hq⟩
  have hpow : ∀ x, ∃ r, Rounded.IntPow A x 2 r := fun x => by
    obtain ⟨r, hr⟩ := hA (x * x); exact ⟨r, Rounded.IntPow.mul Rounded.IntPow.one Rounded.IntPow.one hr⟩
  have hpow3 : ∀ x, ∃ r, Rounded.IntPow A x 3 r := fun x => by
    obtain ⟨y, hy⟩ := hpow x; obtain ⟨r, hr⟩ := hA (y * x); exact ⟨r, Rounded.IntPow.mul hy Rounded.IntPow.one hr⟩
  obtain ⟨y, hy⟩ := hA (1 / w)
  obtain ⟨y2, hy2⟩ := hpow y
  obtain ⟨y3, hy3⟩ := hpow3 y
  obtain ⟨R, hR⟩ := hlit Dust.RV_C00
  obtain ⟨F, hF⟩ := hlit 2.659
  have hblue : (Rounded.c00_blue P A y).Nonempty := by
    obtain ⟨c0, h0⟩ := hneg 2.156
    obtain ⟨c1, h1⟩ := hlit 1.509
    obtain ⟨t1, ht1⟩ := hA (c1 * y)
    obtain ⟨s1, hs1⟩ := hA (c0 + t1)
    obtain ⟨c2, h2⟩ := hlit 0.198
    obtain ⟨t2, ht2⟩ := hA (c2 * y2)
    obtain ⟨s2, hs2⟩ := hA (s1 - t2)
    obtain ⟨c3, h3⟩ := hlit 0.011
    obtain ⟨t3, ht3⟩ := hA (c3 * y3)
    obtain ⟨s3, hs3⟩ := hA (s2 + t3)
    obtain ⟨p, hp⟩ := hA (F * s3)
    obtain ⟨o, ho⟩ := hA (p + R)
    exact ⟨o, c0, h0, c1, h1, t1, ht1, s1, hs1, c2, h2, y2, hy2, t2, ht2, s2, hs2, c3, h3, y3, hy3, t3, ht3, s3, hs3, F, hF, p, hp, R, hR, ho⟩
  have hred : (Rounded.c00_red P A y).Nonempty := by
    obtain ⟨c0, h0⟩ := hneg 1.857
    obtain ⟨c1, h1⟩ := hlit 1.040
    obtain ⟨t1, ht1⟩ := hA (c1 * y)
    obtain ⟨s1, hs1⟩ := hA (c0 + t1)
    obtain ⟨p, hp⟩ := hA (F * s1)
    obtain ⟨o, ho⟩ := hA (p + R)
    exact ⟨o, c0, h0, c1, h1, t1, ht1, s1, hs1, F, hF, p, hp, R, hR, ho⟩
  have hc : (Rounded.calzetti00_k_lambda P A w).Nonempty := by
    obtain ⟨k1, h1⟩ := hblue
    obtain ⟨k2, h2⟩ := hred
    obtain ⟨b, hb⟩ := hlit 0.63
    exact ⟨_, y, hy, k1, h1, k2, h2, b, hb, rfl⟩
  have hl : (Rounded.leitherer02_k_lambda P A w).Nonempty := by
    obtain ⟨c0, h0⟩ := hlit 5.472
    obtain ⟨c1, h1⟩ := hlit 0.671
    obtain ⟨t1, ht1⟩ := hA (c1 * y)
    obtain ⟨a2, ha2⟩ := hP 9.218
    obtain ⟨m, hm⟩ := hP 1e-3
    obtain ⟨d2, hd2⟩ := hP (a2 * m)
    obtain ⟨c2, hc2⟩ := hA d2
    obtain ⟨t2, ht2⟩ := hA (c2 * y2)
    obtain ⟨s2, hs2⟩ := hA (t1 - t2)
    obtain ⟨a3, ha3⟩ := hP 2.620
    obtain ⟨d3, hd3⟩ := hP (a3 * m)
    obtain ⟨c3, hc3⟩ := hA d3
    obtain ⟨t3, ht3⟩ := hA (c3 * y3)
    obtain ⟨s3, hs3⟩ := hA (s2 + t3)
    obtain ⟨o, ho⟩ := hA (c0 + s3)
    exact ⟨o, y, hy, c0, h0, c1, h1, t1, ht1, a2, ha2, m, hm, c2, ⟨d2, hd2, hc2⟩, y2, hy2, t2, ht2, s2, hs2, a3, ha3, c3, ⟨d3, hd3, hc3⟩, y3, hy3, t3, ht3,
      s3, hs3, ho⟩
  obtain ⟨k0, hk0⟩ : (Rounded.l02_below_c00_above P A w).Nonempty := by
    obtain ⟨kc, h1⟩ := hc
    obtain ⟨kl, h2⟩ := hl
    obtain ⟨b, hb⟩ := hlit 0.15
    exact ⟨_, kc, h1, kl, h2, b, hb, rfl⟩
  obtain ⟨p, hp⟩ : (Rounded.power_law_vband_norm P A v w s).Nonempty := by
    obtain ⟨vb, hvb⟩ := hlit 0.55
    obtain ⟨x, hx⟩ := hA (w / vb)
    have : 0 < x := hA0 _ (div_pos hw (hB _ hvb)) _ hx
    refine ⟨x ^ s, vb, hvb, x, hx, ?_⟩
    show |x ^ s - x ^ s| ≤ _
    rw [sub_self, abs_zero]; positivity
  obtain ⟨x0, hx0⟩ := hlit Dust.UV_BUMP_W0
  obtain ⟨g, hg⟩ := hlit Dust.UV_BUMP_DW
  obtain ⟨b, hb⟩ : (Rounded.drude_bump A w x0 g a).Nonempty := by
    obtain ⟨x2, h1⟩ := hA (w * w)
    obtain ⟨g2, h2⟩ := hA (g * g)
    obtain ⟨num, h3⟩ := hA (x2 * g2)
    obtain ⟨z2, h4⟩ := hA (x0 * x0)
    obtain ⟨d, h5⟩ := hA (x2 - z2)
    obtain ⟨dd, h6⟩ := hA (d * d)
    obtain ⟨den, h7⟩ := hA (dd + num)
    obtain ⟨bu, h8⟩ := hA (num / den)
    obtain ⟨o, h9⟩ := hA (a * bu)
    exact ⟨o, x2, h1, g2, h2, num, h3, z2, h4, d, h5, dd, h6, num, h3, den, h7, bu, h8, h9⟩
  refine ⟨?_, ?_, ?_⟩
  · obtain ⟨k1, hk1⟩ := hA (k0 + b)
    obtain ⟨k2, hk2⟩ := hA (k1 * p)
    exact ⟨_, k0, hk0, x0, hx0, g, hg, b, hb, k1, hk1, p, hp, k2, hk2, rfl⟩
  · obtain ⟨k1, hk1⟩ := hA (k0 * p)
    obtain ⟨k2, hk2⟩ := hA (k1 + b)
    exact ⟨_, k0, hk0, p, hp, k1, hk1, x0, hx0, g, hg, b, hb, k2, hk2, rfl⟩
  · obtain ⟨q, hq⟩ := hA (av * k)
    obtain ⟨o, ho⟩ := hA (q / R)
    obtain ⟨c, hc⟩ := hneg 0.4
    obtain ⟨m, hm⟩ := hA (c * (if o < 0 then 0 else o))
    obtain ⟨g', hg'⟩ := hA (1 - f)
    obtain ⟨q', hq'⟩ := hA (g' * exp10 m)
    obtain ⟨out, hout⟩ := hA (f + q')
    refine ⟨out, _, ⟨q, hq, R, hR, o, ho, rfl⟩, c, hc, m, hm, exp10 m, ?_, g', hg', q', hq', hout⟩
    show |exp10 m - exp10 m| ≤ _
    rw [sub_self, abs_zero]
    unfold Jnp.exp10; positivity

/-- **Specification.**  Ordinary dust: far ultraviolet to near infrared, moderate slope, bump and amount of dust. -/
structure OrdinaryDust (w a s av f : ℝ) : Prop where
  wave : 0.1 ≤ w ∧ w ≤ 3
  bump : |a| ≤ 10
  slope : |s| ≤ 3
  amount : 0 ≤ av ∧ av ≤ 5
  floor : 0 ≤ f ∧ f ≤ 1

lemma plaw_le {w s : ℝ} (h1 : 0.1 ≤ w) (h2 : w ≤ 3) (hs : |s| ≤ 3) : Dust.power_law_vband_norm w s ≤ 166.4 := by
  unfold Dust.power_law_vband_norm
  have hx : 0 < w / 0.55 := by positivity
  have l5 : 0 ≤ Real.log 5.5 := Real.log_nonneg (by norm_num)
  have hl : |Real.log (w / 0.55)| ≤ Real.log 5.5 := by
    rw [abs_le]
    constructor
    · rw [← Real.log_inv]
      exact Real.log_le_log (by norm_num) (by rw [le_div_iff₀ (by norm_num)]; norm_num at h1 ⊢; linarith)
    · exact Real.log_le_log hx (by rw [div_le_iff₀ (by norm_num)]; norm_num; linarith)
  have : Real.log (w / 0.55) * s ≤ Real.log (5.5 ^ (3:ℕ)) := by
    rw [Real.log_pow]
    calc _ ≤ |Real.log (w / 0.55) * s| := le_abs_self _
      _ = |Real.log (w / 0.55)| * |s| := abs_mul _ _
      _ ≤ Real.log 5.5 * 3 := mul_le_mul hl hs (abs_nonneg _) l5
      _ = _ := by push_cast; ring
  rw [Real.rpow_def_of_pos hx]
  calc _ ≤ Real.exp (Real.log (5.5 ^ (3:ℕ))) := Real.exp_le_exp.2 this
    _ = 5.5 ^ (3:ℕ) := Real.exp_log (by norm_num)
    _ ≤ _ := by norm_num

lemma ordinary_sizes {w : ℝ} (h1 : 0.1 ≤ w) (h2 : w ≤ 3) : curveSize w ≤ 134 ∧ bumpCost w ≤ 575 := by
  have hw : 0 < w := by norm_num at h1; linarith
  have hi : w⁻¹ ≤ 10 := by rw [inv_le_comm₀ hw (by norm_num)]; norm_num at h1 ⊢; exact h1
  have hi0 : 0 < w⁻¹ := by positivity
  have hi2 : w⁻¹ ^ 2 ≤ 100 := by nlinarith
  have hi3 : w⁻¹ ^ 3 ≤ 1000 := by nlinarith
  constructor
  · unfold curveSize
    rw [inv_pow] at hi2 hi3
    rw [div_eq_mul_inv, div_eq_mul_inv, div_eq_mul_inv]
    norm_num; linarith
  · unfold bumpCost bumpSize
    have : (w ^ 2 + 0.2175 ^ 2) / (w * 0.035) ≤ 87 := by
      rw [div_le_iff₀ (by positivity)]
      norm_num at h1 ⊢; nlinarith
    norm_num at this ⊢; linarith

/-- C129: in double precision, ordinary dust: the transmitted fraction is correct to nine significant digits. -/
theorem C129_float64 (B : Float64 P A v) {w a s k av f r : ℝ} (H : OrdinaryDust w a s av f) (hc : ClearOfBreaks (2 ^ (-50:ℤ)) w)
    (hr : r ∈ Rounded.frac_transmission_from_k_lambda P A v k av f) :
    (k ∈ Rounded.noll09_k_lambda P A v w a s → |r - Dust.frac_transmission_from_k_lambda (Dust.noll09_k_lambda w a s) av f| ≤ 2.5e-9) ∧
    (k ∈ Rounded.sbl18_k_lambda P A v w a s → |r - Dust.frac_transmission_from_k_lambda (Dust.sbl18_k_lambda w a s) av f| ≤ 2.5e-9) := by
  have M := B.machine
  have hw : 0 < w := by have := H.wave.1; norm_num at this; linarith
  obtain ⟨hC, hB⟩ := ordinary_sizes H.wave.1 H.wave.2
  have hC0 := curveSize_pos hw
  have hB0 : 0 ≤ bumpCost w := by unfold bumpCost bumpSize; positivity
  have hp := plaw_le H.wave.1 H.wave.2 H.slope
  have hp0 : 0 ≤ Dust.power_law_vband_norm w s := by unfold Dust.power_law_vband_norm; positivity
  have ha := abs_nonneg a
  have hs := abs_nonneg s
  have ha1 := H.bump
  have hs1 := H.slope
  have hav := H.amount
  have hε : ((2:ℝ) ^ (-50:ℤ)) ≤ 9e-16 := by norm_num
  have hε0 : (0:ℝ) ≤ 2 ^ (-50:ℤ) := by positivity
  have E1 : nollErr w a s ≤ 1.7e6 := by
    unfold nollErr
    have i1 : bumpCost w * |a| ≤ 575 * 10 := mul_le_mul hB ha1 ha (by norm_num)
    have i2 : (curveSize w + |a|) * (3.2 * |s| + 3.4) ≤ 144 * 13 := mul_le_mul (by linarith) (by norm_num; linarith) (by positivity) (by norm_num)
    have i3 : 14 * curveSize w + 1.1 * bumpCost w * |a| + (curveSize w + |a|) * (3.2 * |s| + 3.4) ≤ 14 * 134 + 1.1 * 5750 + 144 * 13 := by
      rw [mul_assoc]; norm_num at i1 i2 ⊢; linarith
    have := mul_le_mul hp i3 (by positivity) (by norm_num)
    norm_num at this ⊢; linarith
  have E2 : sblErr w a s ≤ 1.7e6 := by
    unfold sblErr
    have i1 : Dust.power_law_vband_norm w s * curveSize w * (3.2 * |s| + 18) ≤ 166.4 * 134 * 27.6 :=
      mul_le_mul (mul_le_mul hp hC (by linarith) (by norm_num)) (by norm_num; linarith) (by positivity) (by norm_num)
    have i2 : |a| * (1.1 * bumpCost w + 1.2) ≤ 10 * 635 := mul_le_mul ha1 (by norm_num; linarith) (by positivity) (by norm_num)
    norm_num at i1 i2 ⊢; linarith
  -- the size of the attenuation
  have base : ∀ k, |k| ≤ 25000 → 6.6 * Dust.att_curve_from_k_lambda k av + 4.1 ≤ 210000 := by
    intro k hk
    have := att_lipschitz (k := 0) (k' := k) (e := 25000) hav.1 (by rw [sub_zero]; exact hk)
    rw [show Dust.att_curve_from_k_lambda 0 av = 0 by unfold Dust.att_curve_from_k_lambda; simp, sub_zero] at this
    have h2 := (abs_le.1 this).2
    have h3 : av * 25000 / 4.05 ≤ 5 * 25000 / 4.05 := by have := hav.2; gcongr
    norm_num at h2 h3 ⊢; linarith
  have T1 : ∀ k, 0 ≤ Dust.frac_transmission_from_k_lambda k av f ∧ Dust.frac_transmission_from_k_lambda k av f ≤ 1 := fun k =>
    ⟨H.floor.1.trans (C55_bounds k av H.floor.2).1, (C55_bounds k av H.floor.2).2.1⟩
  have small : ∀ K, K ≤ 2.2e6 → K * (2:ℝ) ^ (-50:ℤ) ≤ 2.5e-9 := fun K h =>
    (mul_le_mul_of_nonneg_right h hε0).trans ((mul_le_mul_of_nonneg_left hε (by norm_num)).trans (by norm_num))
  have hB' : bumpCost w * (2:ℝ) ^ (-50:ℤ) ≤ 0.0099 := (small _ (by norm_num; linarith)).trans (by norm_num)
  have hS' : (3 * |s| + 1) * (2:ℝ) ^ (-50:ℤ) ≤ 0.0099 := (small _ (by norm_num; linarith)).trans (by norm_num)
  have fin : ∀ K T x y : ℝ, K ≤ 2.2e6 → 0 ≤ T → T ≤ 1 → |x - y| ≤ K * (2:ℝ) ^ (-50:ℤ) * T → |x - y| ≤ 2.5e-9 := fun K T x y hK h0 h1 h =>
    h.trans ((mul_le_mul_of_nonneg_right (small K hK) h0).trans (by norm_num; linarith))
  have tot : ∀ e, 0 ≤ e → e ≤ 1.7e6 → 0.23 * av * e ≤ 1955000 := fun e h0 h => by
    have := mul_le_mul (mul_le_mul_of_nonneg_left hav.2 (show (0:ℝ) ≤ 0.23 by norm_num)) h h0 (by norm_num)
    norm_num at this ⊢; linarith
  constructor <;> intro hk
  · have K : |Dust.noll09_k_lambda w a s| ≤ 25000 := by
      obtain ⟨k0, hk0, x0, hx0, g, hg, b, hb, -⟩ := hk
      have z0 := (curve_near M hw hc hk0).1
      have zb := (drude_err M hw hB' hx0 hg hb).2
      have : |(Dust.l02_below_c00_above w + Dust.drude_bump w Dust.UV_BUMP_W0 Dust.UV_BUMP_DW a) * Dust.power_law_vband_norm w s| ≤ 25000 := by
        rw [abs_mul, abs_of_nonneg hp0]
        have := mul_le_mul ((abs_add_le _ _).trans (add_le_add (z0.trans hC) (zb.trans ha1))) hp hp0 (by norm_num)
        norm_num at this ⊢; linarith
      unfold Dust.noll09_k_lambda
      simp only
      split_ifs <;> [norm_num; exact this]
    have b1 := base _ K
    have b2 := tot (nollErr w a s) (by unfold nollErr; positivity) E1
    have hK : 6.6 * Dust.noll09_k_att_curve w av a s + 4.1 + 0.23 * av * nollErr w a s ≤ 2.2e6 := by
      unfold Dust.noll09_k_att_curve; norm_num at b1 b2 ⊢; linarith
    exact fin _ _ _ _ hK (T1 _).1 (T1 _).2 (C129_noll09_transmission M hw hc hB' hS' hav.1 H.floor.1 H.floor.2 ((small _ hK).trans (by norm_num)) hk hr)
  · have K : |Dust.sbl18_k_lambda w a s| ≤ 25000 := by
      obtain ⟨k0, hk0, p, hp', k1, hk1, x0, hx0, g, hg, b, hb, -⟩ := hk
      have z0 := (curve_near M hw hc hk0).1
      have zb := (drude_err M hw hB' hx0 hg hb).2
      have : |Dust.l02_below_c00_above w * Dust.power_law_vband_norm w s + Dust.drude_bump w Dust.UV_BUMP_W0 Dust.UV_BUMP_DW a| ≤ 25000 := by
        refine (abs_add_le _ _).trans ?_
        rw [abs_mul, abs_of_nonneg hp0]
        have := mul_le_mul (z0.trans hC) hp hp0 (by norm_num)
        norm_num at this ⊢; linarith
      unfold Dust.sbl18_k_lambda
      simp only
      split_ifs <;> [norm_num; exact this]
    have b1 := base _ K
    have b2 := tot (sblErr w a s) (by unfold sblErr; positivity) E2
    have hK : 6.6 * Dust.sbl18_k_att_curve w av a s + 4.1 + 0.23 * av * sblErr w a s ≤ 2.2e6 := by
      unfold Dust.sbl18_k_att_curve; norm_num at b1 b2 ⊢; linarith
    exact fin _ _ _ _ hK (T1 _).1 (T1 _).2 (C129_sbl18_transmission M hw hc hB' hS' hav.1 H.floor.1 H.floor.2 ((small _ hK).trans (by norm_num)) hk hr)

/-- case: a galaxy with `A_V = 1`, slope -0.2, bump 2, observed at 3000 angstroms, a tenth of the light unobscured: the machine result exists, lies
within 2.5e-9 of the exact value and in the interval from 0.1 to 1 up to that error -/
example : ∃ k ∈ Rounded.noll09_k_lambda f64 f64 (2 ^ (-50:ℤ)) 0.3 2 (-0.2), ∃ r ∈ Rounded.frac_transmission_from_k_lambda f64 f64 (2 ^ (-50:ℤ)) k 1 0.1,
    |r - Dust.frac_transmission_from_k_lambda (Dust.noll09_k_lambda 0.3 2 (-0.2)) 1 0.1| ≤ 2.5e-9 := by
  have hne : ∀ x, (f64.rnd x).Nonempty := fun x => Set.singleton_nonempty _
  have hpos : ∀ x > 0, ∀ r ∈ f64.rnd x, 0 < r := fun x hx r hr => by
    have := f64.rel _ _ hr
    rw [abs_of_pos hx] at this
    have h1 := (abs_le.1 this).1
    have h2 := f64.u_lt_one
    nlinarith
  obtain ⟨k, hk⟩ := (C129_results_exist (P := f64) (A := f64) (v := 2 ^ (-50:ℤ)) (by norm_num) hne hne (w := 0.3) (by norm_num)
    (fun x ⟨p, hp, hx⟩ => hpos _ (hpos _ (by norm_num) _ hp) _ hx) hpos 2 (-0.2) 0 1 0.1).1
  obtain ⟨r, hr⟩ := (C129_results_exist (P := f64) (A := f64) (v := 2 ^ (-50:ℤ)) (by norm_num) hne hne (w := 0.3) (by norm_num)
    (fun x ⟨p, hp, hx⟩ => hpos _ (hpos _ (by norm_num) _ hp) _ hx) hpos 2 (-0.2) k 1 0.1).2.2
  refine ⟨k, hk, r, hr, (C129_float64 float64_ieee ⟨?_, ?_, ?_, ?_, ?_⟩ ?_ hr).1 hk⟩
  · norm_num
  · norm_num
  · norm_num [abs_le]
  · norm_num
  · norm_num
  · constructor <;> norm_num

example := C129_transmission_in_range (p := 53) (f := 0) (t := 1 / 2) (by norm_num) (nearest_zero _) le_rfl (by norm_num) (by norm_num) (by norm_num) rfl rfl rfl
example {r : ℝ} (hr : r ∈ Rounded.noll09_k_lambda f64 f64 (2 ^ (-50:ℤ)) 0.3 2 0) :=
  C129_noll09 float64_ieee.machine (by norm_num) ⟨by norm_num, by norm_num⟩ (by unfold bumpCost bumpSize; norm_num) (by norm_num) hr
example {r : ℝ} (hr : r ∈ Rounded.sbl18_k_lambda f64 f64 (2 ^ (-50:ℤ)) 0.3 2 0) :=
  C129_sbl18 float64_ieee.machine (by norm_num) ⟨by norm_num, by norm_num⟩ (by unfold bumpCost bumpSize; norm_num) (by norm_num) hr
example {r : ℝ} (hr : r ∈ Rounded.l02_below_c00_above f64 f64 0.3) := C129_curve float64_ieee.machine (by norm_num) ⟨by norm_num, by norm_num⟩ hr
example {r : ℝ} (hr : r ∈ Rounded.frac_transmission_from_k_lambda f64 f64 (2 ^ (-50:ℤ)) 4.05 1 0) :=
  C129_transmission float64_ieee.machine (by norm_num) (by norm_num) le_rfl (by norm_num)
    (by unfold Dust.att_curve_from_k_lambda Dust.RV_C00; norm_num) hr

end transmission

end Dsps.Props
