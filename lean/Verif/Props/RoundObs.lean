import Verif.Lemmas.RoundObs
import Verif.Props.RoundCosmoBits
import Verif.Props.RoundMag

/-! C118: floating-point accuracy of magnitudes, rest frame and observed frame.  The programs are those of `Verif/Model/RoundedObs.lean`.  As in C117
errors are counted in roundings: a cost `K` is a relative error of the flux of about `K ε`. -/
namespace Dsps.Props
open Jnp Fl Spec Dsps.Lemmas

variable {P A : Arith} {v ε : ℝ} {Om0 w0 wa h z : ℝ} {d dc : ℕ} {n m : ℕ} [Dtype]

/-- **Conditions on spectrum and filter, rest frame**: positive luminosities, neighbours of which differ by at most a factor `Q`; wavelengths
resolved by JAX's interpolation; an increasing, non-negative, live filter inside the wavelength range of the spectrum. -/
structure RestConditions (A : Arith) (Q : ℝ) (ws ls : Fin (n + 2) → ℝ) (wv tr : Fin (m + 1) → ℝ) : Prop where
  wave : Monotone ws
  gaps : ∀ i : Fin (n + 1), Dtype.interpEps < (ws i.succ - ws i.castSucc) * (1 - A.u)
  lum_pos : ∀ i, 0 < ls i
  contrast : Contrast Q ls
  filter : GoodFilter wv tr
  live : 0 < Photometry.flux_ab0_at_10pc wv tr
  covered : ∀ i, ws 0 ≤ wv i ∧ wv i ≤ ws (Fin.last (n + 1))

/-- **Conditions, observed frame**: the same for the redshifted wavelengths `ws (1+z)`, which are rounded, so that they must be resolved and cover
the filter with a margin; the logarithmic slope of the spectrum is at most `Λ`. -/
structure ObsConditions (ε Q Λ : ℝ) (ws ls : Fin (n + 2) → ℝ) (wv tr : Fin (m + 1) → ℝ) (z : ℝ) : Prop where
  z_gt : -1 < z
  wave_pos : 0 < ws 0
  gaps : ∀ i : Fin (n + 1), Dtype.interpEps + 5 * ε * (ws i.succ * (1 + z)) < (ws i.succ * (1 + z) - ws i.castSucc * (1 + z)) * (1 - ε)
  lum_pos : ∀ i, 0 < ls i
  contrast : Contrast Q ls
  slope_ge : 1 ≤ Λ
  slope : LogSlope Λ ws ls
  filter : GoodFilter wv tr
  live : 0 < Photometry.flux_ab0_at_10pc wv tr
  covered : ∀ i, ws 0 * (1 + z) * (1 + 3 * ε) ≤ wv i ∧ wv i ≤ ws (Fin.last (n + 1)) * (1 + z) * (1 - 3 * ε)

/-- cost of the rest-frame flux of a spectrum known up to `κ` roundings -/
noncomputable def restFluxCost (d : ℕ) (Q κ : ℝ) : ℝ := 6.4 * Q + κ + 2 * d + 15

/-- cost of the observed-frame flux -/
noncomputable def obsFluxCost (d : ℕ) (Q Λ κ : ℝ) : ℝ := restFluxCost d Q κ + 2 * Λ

/-! ### fluxes through the filter -/

lemma filter_close (M : Machine P A v ε) {K : ℝ} {wv tr lum lum0 : Fin (m + 1) → ℝ} (hf : GoodFilter wv tr)
    (hlum : ∀ i, Close (K * (1.001 * ε)) (lum i) (lum0 i)) {r : ℝ} (hr : r ∈ Rounded.filter_flux A d wv tr lum) :
    Close ((K + d + 6) * (1.001 * ε)) r (Utils.trapz wv fun i => tr i * lum0 i / wv i) := by
  obtain ⟨a, ha, b, hb, hr⟩ := hr
  have wb : ∀ i, Close ((K + 2) * (1.001 * ε)) (b i) (tr i * lum0 i / wv i) := fun i => by
    have w1 := ((Close.refl (hf.2.2 i)).mul (hlum i)).rnd M.tolA (ha i)
    exact ((w1.div (Close.refl (hf.2.1 i).le)).rnd M.tolA (hb i)).mono (by linarith)
  have := close_trapezoid M.tolA (x := wv) (x' := wv) (g := 0) (fun i => Close.refl (sub_nonneg.2 (hf.1 (Fin.castSucc_lt_succ).le))) wb hr
  exact this.mono (by linarith)

lemma ab0_close (M : Machine P A v ε) {wv tr : Fin (m + 1) → ℝ} (hf : GoodFilter wv tr) {r : ℝ} (hr : r ∈ Rounded.flux_ab0 P A d wv tr) :
    Close ((d + 8) * (1.001 * ε)) r (Photometry.flux_ab0_at_10pc wv tr) := by
  obtain ⟨ab, hab, hr⟩ := hr
  have := filter_close M hf (lum0 := fun _ => Photometry.AB0) (fun _ => lit_close M AB0_pos.le hab) hr
  exact this.mono (by linarith)

/-- the machine spectrum has nearly the contrast of the exact one -/
lemma contrast_close {δ Q : ℝ} {ls ls0 : Fin (n + 2) → ℝ} (hQ : Contrast Q ls0) (hp : ∀ i, 0 < ls0 i) (hδ : δ ≤ 0.01)
    (hls : ∀ i, Close δ (ls i) (ls0 i)) : Contrast (1.03 * Q) ls := by
  have he : Real.exp δ * Real.exp δ ≤ 1.03 := by
    rw [← Real.exp_add]
    have h1 : Real.exp (δ + δ) ≤ Real.exp 0.02 := Real.exp_le_exp.2 (by norm_num at hδ ⊢; linarith)
    have h2 := exp_sub_one_le (x := 0.02) (c := 0.02) (by norm_num) (by norm_num) le_rfl
    refine h1.trans ?_
    norm_num at h2 ⊢; linarith
  have hQ0 : 0 ≤ Q := by
    have h1 := (hQ 0).1
    have h2 := hp (0 : Fin (n + 1)).succ
    have h3 := hp (0 : Fin (n + 1)).castSucc
    by_contra hc; push Not at hc; nlinarith
  have key : ∀ i j, ls0 i ≤ Q * ls0 j → ls i ≤ 1.03 * Q * ls j := fun i j hij => by
    have h1 := (hls i).2.2
    have h2 : ls0 j ≤ ls j * Real.exp δ := by
      have := mul_le_mul_of_nonneg_right (hls j).2.1 (Real.exp_pos δ).le
      rwa [mul_assoc, ← Real.exp_add, neg_add_cancel, Real.exp_zero, mul_one] at this
    have h0 := (hls j).nonneg
    calc ls i ≤ ls0 i * Real.exp δ := h1
      _ ≤ (Q * (ls j * Real.exp δ)) * Real.exp δ := by
        apply mul_le_mul_of_nonneg_right _ (Real.exp_pos _).le
        exact hij.trans (mul_le_mul_of_nonneg_left h2 hQ0)
      _ = (Q * ls j) * (Real.exp δ * Real.exp δ) := by ring
      _ ≤ (Q * ls j) * 1.03 := mul_le_mul_of_nonneg_left he (mul_nonneg hQ0 h0)
      _ = _ := by ring
  exact fun i => ⟨key _ _ (hQ i).1, key _ _ (hQ i).2⟩

/-- interpolation is linear and monotone in the values -/
lemma interp_values {δ x : ℝ} {xp ls ls0 : Fin (n + 2) → ℝ} (hx : Monotone xp) (hls : ∀ i, Close δ (ls i) (ls0 i)) :
    Close δ (interp x xp ls) (interp x xp ls0) := by
  obtain ⟨i, s, a, b, c⟩ := interp_convex hx x
  rw [c, c]
  refine Close.add ?_ ?_
  · have := (Close.refl (sub_nonneg.2 b)).mul (hls i.castSucc); rwa [zero_add] at this
  · have := (Close.refl a).mul (hls i.succ); rwa [zero_add] at this

lemma interpLR_eq {x : ℝ} {xp fp : Fin (n + 2) → ℝ} (h0 : xp 0 ≤ x) (h1 : x ≤ xp (Fin.last (n + 1))) : interpLR x xp fp 0 0 = interp x xp fp := by
  unfold interp; rw [interp_of_mem h0 h1, interp_of_mem h0 h1]

lemma cost_small {Q κ : ℝ} (M : Machine P A v ε) (hQ0 : 0 ≤ Q) (hκ : 0 ≤ κ) (hK : restFluxCost d Q κ * ε ≤ 0.0099) :
    1.03 * Q * (1.001 * ε) ≤ 0.0016 ∧ κ * (1.001 * ε) ≤ 0.01 := by
  have hε := M.eps_nonneg
  have h1 := mul_nonneg hQ0 hε
  have h2 := mul_nonneg hκ hε
  have h3 := mul_nonneg (Nat.cast_nonneg (α := ℝ) d) hε
  unfold restFluxCost at hK
  have e : (6.4 * Q + κ + 2 * d + 15) * ε = 6.4 * (Q * ε) + κ * ε + 2 * (d * ε) + 15 * ε := by ring
  rw [e] at hK
  norm_num at hK ⊢
  constructor <;> linarith

lemma contrast_pos {Q : ℝ} {ls : Fin (n + 2) → ℝ} (hQ : Contrast Q ls) (hp : ∀ i, 0 < ls i) : 0 ≤ Q := by
  have h1 := (hQ 0).1
  have h2 := hp (0 : Fin (n + 1)).succ
  have h3 := hp (0 : Fin (n + 1)).castSucc
  by_contra hc; push Not at hc; nlinarith

/-- luminosities interpolated to the filter, rest frame -/
lemma rest_lum_close (M : Machine P A v ε) {Q κ : ℝ} {ws ls ls0 : Fin (n + 2) → ℝ} {wv tr : Fin (m + 1) → ℝ} (C : RestConditions A Q ws ls0 wv tr)
    (hκ : 0 ≤ κ) (hls : ∀ i, Close (κ * (1.001 * ε)) (ls i) (ls0 i)) (hK : restFluxCost d Q κ * ε ≤ 0.0099) {lum : Fin (m + 1) → ℝ}
    (hl : lum ∈ vec fun i => Rounded.interp0 A (wv i) ws ls) (i : Fin (m + 1)) :
    Close ((6.4 * Q + κ) * (1.001 * ε)) (lum i) (interpLR (wv i) ws ls0 0 0) := by
  have hQ0 := contrast_pos C.contrast C.lum_pos
  obtain ⟨s1, s2⟩ := cost_small M hQ0 hκ hK
  have hc := C.covered i
  have w1 := close_interp0 M.tolA C.wave C.gaps (fun j => (hls j).pos (C.lum_pos j)) (contrast_close C.contrast C.lum_pos s2 hls) s1 hc (hl i)
  have w2 := interp_values (x := wv i) C.wave hls
  rw [interpLR_eq hc.1 hc.2] at w1 ⊢
  refine (w1.trans w2).mono ?_
  have := mul_nonneg hQ0 M.eps_nonneg
  norm_num; linarith

lemma rest_flux_close (M : Machine P A v ε) {Q κ : ℝ} {ws ls ls0 : Fin (n + 2) → ℝ} {wv tr : Fin (m + 1) → ℝ} (C : RestConditions A Q ws ls0 wv tr)
    (hκ : 0 ≤ κ) (hls : ∀ i, Close (κ * (1.001 * ε)) (ls i) (ls0 i)) (hK : restFluxCost d Q κ * ε ≤ 0.0099) {r : ℝ}
    (hr : r ∈ Rounded.calc_rest_flux' P A d ws ls wv tr) :
    Close (restFluxCost d Q κ * (1.001 * ε)) r (Photometry.calc_rest_flux ws ls0 wv tr) := by
  obtain ⟨f, ⟨lum, hl, hf⟩, b, hb, hr⟩ := hr
  have w1 := filter_close M C.filter (rest_lum_close M C hκ hls hK hl) hf
  have w2 := ab0_close M C.filter hb
  refine ((w1.div w2).rnd M.tolA hr).mono (le_of_eq ?_)
  unfold restFluxCost; ring

/-- a spectrum with relative errors -/
lemma spectrum_close (M : Machine P A v ε) {κ : ℝ} {ls ls0 : Fin (n + 2) → ℝ} (hp : ∀ i, 0 < ls0 i) (hκ : 0 ≤ κ) (hs : κ * ε ≤ 0.0099)
    (hls : ∀ i, |ls i - ls0 i| ≤ κ * ε * ls0 i) (i : Fin (n + 2)) : Close (1.02 * κ * (1.001 * ε)) (ls i) (ls0 i) := by
  have hε := M.eps_nonneg
  have hk := mul_nonneg hκ hε
  refine (Close.of_small (hp i).le hk (by norm_num at hs ⊢; linarith) (hls i)).mono ?_
  norm_num; linarith

lemma restFluxCost_ge (d : ℕ) {Q κ : ℝ} (hQ : 0 ≤ Q) (hκ : 0 ≤ κ) : κ + 15 ≤ restFluxCost d Q κ := by
  have : (0:ℝ) ≤ d := Nat.cast_nonneg d
  unfold restFluxCost; norm_num; linarith

/-- C118: the rest-frame flux of a spectrum `ls` that is itself only known up to `κ` roundings (`ls0` is the exact spectrum). -/
theorem C118_rest_flux (M : Machine P A v ε) {Q κ : ℝ} {ws ls ls0 : Fin (n + 2) → ℝ} {wv tr : Fin (m + 1) → ℝ} (C : RestConditions A Q ws ls0 wv tr)
    (hκ : 0 ≤ κ) (hls : ∀ i, |ls i - ls0 i| ≤ κ * ε * ls0 i) (hK : restFluxCost d Q (1.02 * κ) * ε ≤ 0.0099) {r : ℝ}
    (hr : r ∈ Rounded.calc_rest_flux' P A d ws ls wv tr) :
    |r - Photometry.calc_rest_flux ws ls0 wv tr| ≤ 1.02 * restFluxCost d Q (1.02 * κ) * ε * Photometry.calc_rest_flux ws ls0 wv tr := by
  have hQ0 := contrast_pos C.contrast C.lum_pos
  have hge := restFluxCost_ge d hQ0 (show 0 ≤ 1.02 * κ by positivity)
  have hs : κ * ε ≤ 0.0099 := le_trans (mul_le_mul_of_nonneg_right (by norm_num at hge ⊢; linarith) M.eps_nonneg) hK
  exact M.rel (rest_flux_close M C (by positivity) (spectrum_close M C.lum_pos hκ hs hls) hK hr) (by linarith [show 0 ≤ 1.02 * κ by positivity]) hK

lemma interp_pos {x : ℝ} {xp fp : Fin (n + 2) → ℝ} (hx : Monotone xp) (hf : ∀ i, 0 < fp i) : 0 < interp x xp fp := by
  obtain ⟨i, s, a, b, c⟩ := interp_convex hx x
  rw [c]
  have h1 := hf i.castSucc
  have h2 := hf i.succ
  rcases eq_or_lt_of_le a with h | h
  · rw [← h]; linarith
  · have := mul_pos h h2
    nlinarith [mul_nonneg (sub_nonneg.2 b) h1.le]

/-- the flux of a positive spectrum through a live filter is positive -/
lemma flux_pos {ws ls : Fin (n + 2) → ℝ} {wv tr : Fin (m + 1) → ℝ} (hw : Monotone ws) (hl : ∀ i, 0 < ls i) (hf : GoodFilter wv tr)
    (hlive : 0 < Photometry.flux_ab0_at_10pc wv tr) (hc : ∀ i, ws 0 ≤ wv i ∧ wv i ≤ ws (Fin.last (n + 1))) :
    0 < Photometry.calc_rest_flux ws ls wv tr := by
  obtain ⟨l0, -, hl0⟩ := Finset.exists_min_image Finset.univ ls Finset.univ_nonempty
  exact lt_of_lt_of_le (div_pos (hl l0) AB0_pos) (flux_ge hw (fun i => hl0 i (Finset.mem_univ _)) hf.1 hf.2.1 hf.2.2 hc hlive)

/-- from the flux to the magnitude -/
lemma mag_err (M : Machine P A v ε) {K F f l r : ℝ} (hK0 : 0 ≤ K) (hK : K * ε ≤ 0.0099) (hF : 0 < F) (hf : Close (K * (1.001 * ε)) f F)
    (hl : l ∈ Rounded.log10 v f) (hr : r ∈ A.mul (-2.5) l) :
    |r - -2.5 * Jnp.log10 F| ≤ 1.09 * K * ε + 2.03 * ε * max 2.5 |-2.5 * Jnp.log10 F| := by
  refine (log_err M hK0 hK hF hf hl hr).trans (le_of_eq ?_)
  have e : max 2.5 |-2.5 * Jnp.log10 F| = 2.5 * max 1 |Jnp.log10 F| := by
    rw [abs_mul, mul_max_of_nonneg _ _ (by norm_num)]; norm_num
  rw [e, show |(-2.5:ℝ)| = 2.5 by norm_num]; norm_num; ring

/-- C118: the rest-frame magnitude, in magnitudes. -/
theorem C118_rest_mag (M : Machine P A v ε) {Q κ : ℝ} {ws ls ls0 : Fin (n + 2) → ℝ} {wv tr : Fin (m + 1) → ℝ} (C : RestConditions A Q ws ls0 wv tr)
    (hκ : 0 ≤ κ) (hls : ∀ i, |ls i - ls0 i| ≤ κ * ε * ls0 i) (hK : restFluxCost d Q (1.02 * κ) * ε ≤ 0.0099) {r : ℝ}
    (hr : r ∈ Rounded.calc_rest_mag' P A v d ws ls wv tr) :
    |r - Photometry.calc_rest_mag ws ls0 wv tr|
      ≤ 1.09 * restFluxCost d Q (1.02 * κ) * ε + 2.03 * ε * max 2.5 |Photometry.calc_rest_mag ws ls0 wv tr| := by
  have hQ0 := contrast_pos C.contrast C.lum_pos
  have hge := restFluxCost_ge d hQ0 (show 0 ≤ 1.02 * κ by positivity)
  have hs : κ * ε ≤ 0.0099 := le_trans (mul_le_mul_of_nonneg_right (by norm_num at hge ⊢; linarith) M.eps_nonneg) hK
  obtain ⟨f, hf, l, hl, hr⟩ := hr
  have hF := flux_pos C.wave C.lum_pos C.filter C.live C.covered
  exact mag_err M (by linarith [show 0 ≤ 1.02 * κ by positivity]) hK hF
    (rest_flux_close M C (by positivity) (spectrum_close M C.lum_pos hκ hs hls) hK hf) hl hr

/-! ### observed frame -/

lemma exp_bounds (M : Machine P A v ε) : Real.exp (2 * (1.001 * ε)) ≤ 1 + 2.01 * ε ∧ 1 - 2.01 * ε ≤ Real.exp (-(2 * (1.001 * ε))) := by
  have hε := M.eps_nonneg
  have h6 := M.small
  constructor
  · have := exp_sub_one_le (x := 2 * (1.001 * ε)) (c := 0.001) (by positivity) (by norm_num at h6 ⊢; linarith) (by norm_num at h6 ⊢; linarith)
    norm_num at this ⊢; linarith
  · have := Real.add_one_le_exp (-(2 * (1.001 * ε)))
    norm_num at this ⊢; linarith

/-- the rounded, redshifted wavelengths -/
lemma obs_grid (M : Machine P A v ε) {Q Λ : ℝ} {ws ls0 : Fin (n + 2) → ℝ} {wv tr : Fin (m + 1) → ℝ} (C : ObsConditions ε Q Λ ws ls0 wv tr z)
    {zp1 : ℝ} (hz : zp1 ∈ A.add 1 z) {g : Fin (n + 2) → ℝ} (hg : g ∈ vec fun j => A.mul (ws j) zp1) :
    (Resolved fun j => ws j * (1 + z)) ∧ (∀ j, Close (2 * (1.001 * ε)) (g j) (ws j * (1 + z))) ∧ Monotone g ∧
    (∀ i : Fin (n + 1), Dtype.interpEps < (g i.succ - g i.castSucc) * (1 - A.u)) ∧
    (∀ i, g 0 ≤ wv i ∧ wv i ≤ g (Fin.last (n + 1))) ∧
    (∀ i, ws 0 * (1 + z) ≤ wv i ∧ wv i ≤ ws (Fin.last (n + 1)) * (1 + z)) := by
  have hε := M.eps_nonneg
  have h6 := M.small
  have hzp : 0 < 1 + z := by linarith [C.z_gt]
  have he := Dtype.interpEps_nonneg
  obtain ⟨x1, x2⟩ := exp_bounds M
  have hinc : ∀ i : Fin (n + 1), Dtype.interpEps + 5 * ε * (ws i.succ * (1 + z)) < ws i.succ * (1 + z) - ws i.castSucc * (1 + z) ∧
      ws i.castSucc * (1 + z) < ws i.succ * (1 + z) ∧ 0 < ws i.castSucc * (1 + z) := by
    have pos : ∀ j : Fin (n + 2), 0 < ws j * (1 + z) := by
      intro j
      induction j using Fin.induction with
      | zero => exact mul_pos C.wave_pos hzp
      | succ i ih =>
        have h := C.gaps i
        by_contra hc
        push Not at hc
        have h1 : 5 * ε * (ws i.succ * (1 + z)) ≥ 5 * ε * (ws i.succ * (1 + z)) := le_rfl
        have h2 : (ws i.succ * (1 + z) - ws i.castSucc * (1 + z)) * (1 - ε) ≤ (ws i.succ * (1 + z)) * (1 - ε) := by
          apply mul_le_mul_of_nonneg_right _ (by norm_num at h6; linarith); linarith
        have h3 : (ws i.succ * (1 + z)) * (1 - 6 * ε) ≤ 0 := mul_nonpos_of_nonpos_of_nonneg hc (by norm_num at h6; linarith)
        linarith
    intro i
    have h := C.gaps i
    have p1 := pos i.succ
    have p0 := pos i.castSucc
    have q : 0 ≤ 5 * ε * (ws i.succ * (1 + z)) := by positivity
    have hd : 0 < ws i.succ * (1 + z) - ws i.castSucc * (1 + z) := by
      by_contra hc
      push Not at hc
      have := mul_nonpos_of_nonpos_of_nonneg hc (show 0 ≤ 1 - ε by norm_num at h6; linarith)
      linarith
    refine ⟨?_, by linarith, p0⟩
    have := mul_le_mul_of_nonneg_left (show 1 - ε ≤ 1 by linarith) hd.le
    linarith
  have hres : Resolved fun j => ws j * (1 + z) := fun i => by
    obtain ⟨h1, h2, h3⟩ := hinc i
    have : 0 ≤ 5 * ε * (ws i.succ * (1 + z)) := by have := h3.trans h2; positivity
    show Dtype.interpEps < ws i.succ * (1 + z) - ws i.castSucc * (1 + z)
    linarith
  have hmono : Monotone fun j => ws j * (1 + z) := hres.strictMono.monotone
  have hwpos : ∀ j, 0 < ws j * (1 + z) := fun j => lt_of_lt_of_le (mul_pos C.wave_pos hzp) (hmono (Fin.zero_le j))
  have hclose : ∀ j, Close (2 * (1.001 * ε)) (g j) (ws j * (1 + z)) := fun j => by
    have hw : 0 ≤ ws j := by have := hwpos j; exact (pos_of_mul_pos_left this hzp.le).le
    have w1 := (Close.refl hzp.le).rnd M.tolA hz
    exact (((Close.refl hw).mul w1).rnd M.tolA (hg j)).mono (by linarith)
  have hup : ∀ j, g j ≤ ws j * (1 + z) * (1 + 2.01 * ε) := fun j =>
    (hclose j).2.2.trans (mul_le_mul_of_nonneg_left x1 (hwpos j).le)
  have hdn : ∀ j, ws j * (1 + z) * (1 - 2.01 * ε) ≤ g j := fun j =>
    (mul_le_mul_of_nonneg_left x2 (hwpos j).le).trans (hclose j).2.1
  have hgap : ∀ i : Fin (n + 1), Dtype.interpEps < (g i.succ - g i.castSucc) * (1 - A.u) ∧ g i.castSucc ≤ g i.succ := fun i => by
    obtain ⟨h1, h2, h3⟩ := hinc i
    have a1 := hdn i.succ
    have a2 := hup i.castSucc
    have a3 : 2.01 * ε * (ws i.castSucc * (1 + z)) ≤ 2.01 * ε * (ws i.succ * (1 + z)) := mul_le_mul_of_nonneg_left h2.le (by positivity)
    have p : 0 ≤ ε * (ws i.succ * (1 + z)) := mul_nonneg hε (h3.trans h2).le
    have a4 : (ws i.succ * (1 + z) - ws i.castSucc * (1 + z)) - 4.02 * (ε * (ws i.succ * (1 + z))) ≤ g i.succ - g i.castSucc := by
      norm_num at a1 a2 a3 ⊢; linarith
    have a5 : 0 ≤ g i.succ - g i.castSucc := by norm_num at a4; linarith
    refine ⟨?_, by linarith⟩
    have b1 := C.gaps i
    have b2 : (g i.succ - g i.castSucc) * (1 - ε) ≤ (g i.succ - g i.castSucc) * (1 - A.u) :=
      mul_le_mul_of_nonneg_left (by linarith [M.jax]) a5
    have b3 := mul_le_mul_of_nonneg_right a4 (show 0 ≤ 1 - ε by norm_num at h6; linarith)
    have b4 : 4.02 * (ε * (ws i.succ * (1 + z))) * (1 - ε) ≤ 4.02 * (ε * (ws i.succ * (1 + z))) :=
      mul_le_of_le_one_right (by positivity) (by linarith)
    norm_num at b3 b4 ⊢
    linarith
  refine ⟨hres, hclose, Fin.monotone_iff_le_succ.2 fun i => (hgap i).2, fun i => (hgap i).1, fun i => ?_, fun i => ?_⟩
  · obtain ⟨c1, c2⟩ := C.covered i
    have k0 := mul_nonneg (hwpos 0).le hε
    have k1 := mul_nonneg (hwpos (Fin.last (n + 1))).le hε
    have a1 := hup 0
    have a2 := hdn (Fin.last (n + 1))
    norm_num at a1 a2
    constructor <;> linarith
  · obtain ⟨c1, c2⟩ := C.covered i
    have k0 := mul_nonneg (hwpos 0).le hε
    have k1 := mul_nonneg (hwpos (Fin.last (n + 1))).le hε
    constructor <;> linarith

lemma logSlope_scale {Λ c : ℝ} (hc : 0 ≤ c) {ws ls : Fin (n + 2) → ℝ} (h : LogSlope Λ ws ls) : LogSlope Λ (fun j => ws j * c) ls := fun i j hj => by
  have := mul_le_mul_of_nonneg_right (h i j hj) hc
  show |ls i.succ - ls i.castSucc| * (ws j * c) ≤ Λ * (ws i.succ * c - ws i.castSucc * c) * ls j
  linarith

lemma obs_flux_close (M : Machine P A v ε) {Q Λ κ : ℝ} {ws ls ls0 : Fin (n + 2) → ℝ} {wv tr : Fin (m + 1) → ℝ}
    (C : ObsConditions ε Q Λ ws ls0 wv tr z) (hκ : 0 ≤ κ) (hls : ∀ i, Close (κ * (1.001 * ε)) (ls i) (ls0 i)) (hK : restFluxCost d Q κ * ε ≤ 0.0099)
    {f b q : ℝ} (hf : f ∈ Rounded.obs_flux_ssp A d ws ls wv tr z) (hb : b ∈ Rounded.flux_ab0 P A d wv tr) (hq : q ∈ A.div f b) :
    Close (obsFluxCost d Q Λ κ * (1.001 * ε)) q (Photometry.calc_rest_flux (fun j => ws j * (1 + z)) ls0 wv tr) := by
  obtain ⟨zp1, hz, g, hg, lum, hl, hf⟩ := hf
  obtain ⟨c1, c2, c3, c4, c5, c6⟩ := obs_grid M C hz hg
  have hzp : 0 < 1 + z := by linarith [C.z_gt]
  have C' : RestConditions A Q g ls0 wv tr := ⟨c3, c4, C.lum_pos, C.contrast, C.filter, C.live, c5⟩
  have hlum : ∀ i, Close ((6.4 * Q + κ + 2 * Λ) * (1.001 * ε)) (lum i) (interpLR (wv i) (fun j => ws j * (1 + z)) ls0 0 0) := fun i => by
    have w1 := rest_lum_close (d := d) M C' hκ hls hK hl i
    have hr' : Resolved g := fun i => by
      have h1 := c4 i
      have h2 := c3 (Fin.castSucc_lt_succ (i := i)).le
      have := mul_le_of_le_one_right (sub_nonneg.2 h2) (show 1 - A.u ≤ 1 by linarith [A.u_nonneg])
      linarith
    have w2 := interp_grid c1 hr' C.slope_ge (mul_pos C.wave_pos hzp) C.lum_pos (logSlope_scale hzp.le C.slope) c2 (c6 i).1 (c6 i).2 (c5 i).1 (c5 i).2
    rw [interpLR_eq (c5 i).1 (c5 i).2] at w1
    rw [interpLR_eq (xp := fun j => ws j * (1 + z)) (c6 i).1 (c6 i).2]
    exact (w1.trans w2).mono (by linarith)
  have w1 := filter_close M C.filter hlum hf
  have w2 := ab0_close M C.filter hb
  refine ((w1.div w2).rnd M.tolA hq).mono (le_of_eq ?_)
  unfold obsFluxCost restFluxCost; ring

/-- one addition or subtraction of two numbers with absolute errors -/
lemma sum_err (M : Machine P A v ε) {x y x0 y0 a b r : ℝ} (hx : |x - x0| ≤ a) (hy : |y - y0| ≤ b) (hr : r ∈ A.add x y) :
    |r - (x0 + y0)| ≤ (1 + ε) * (a + b) + ε * (|x0| + |y0|) := by
  have hε := M.eps_nonneg
  have h1 := A.rel _ _ hr
  have h2 : |x + y| ≤ a + b + (|x0| + |y0|) := by
    have e : x + y = (x - x0) + (y - y0) + (x0 + y0) := by ring
    rw [e]
    exact (abs_add_three _ _ _).trans (add_le_add (add_le_add hx hy) (abs_add_le _ _))
  have h3 : A.u * |x + y| ≤ ε * (a + b + (|x0| + |y0|)) := mul_le_mul M.jax h2 (abs_nonneg _) hε
  have e : r - (x0 + y0) = (r - (x + y)) + (x - x0) + (y - y0) := by ring
  rw [e]
  refine (abs_add_three _ _ _).trans ?_
  linarith

lemma sub_err (M : Machine P A v ε) {x y x0 y0 a b r : ℝ} (hx : |x - x0| ≤ a) (hy : |y - y0| ≤ b) (hr : r ∈ A.sub x y) :
    |r - (x0 - y0)| ≤ (1 + ε) * (a + b) + ε * (|x0| + |y0|) := by
  have hy' : |-y - -y0| ≤ b := by rw [← abs_neg]; convert hy using 2; ring
  have := sum_err (y := -y) (y0 := -y0) M hx hy' (r := r) (by
    unfold Arith.add; rw [← sub_eq_add_neg]; exact hr)
  rwa [abs_neg, ← sub_eq_add_neg] at this

/-- C118: the magnitude in a redshifted filter, before cosmological dimming. -/
theorem C118_obs_mag_no_dimming (M : Machine P A v ε) {Q Λ κ : ℝ} {ws ls ls0 : Fin (n + 2) → ℝ} {wv tr : Fin (m + 1) → ℝ}
    (C : ObsConditions ε Q Λ ws ls0 wv tr z) (hκ : 0 ≤ κ) (hls : ∀ i, |ls i - ls0 i| ≤ κ * ε * ls0 i)
    (hK : obsFluxCost d Q Λ (1.02 * κ) * ε ≤ 0.0099) {r : ℝ} (hr : r ∈ Rounded.calc_obs_mag_no_dimming P A v d ws ls wv tr z) :
    |r - Photometry.calc_obs_mag_no_dimming ws ls0 wv tr z|
      ≤ 1.09 * obsFluxCost d Q Λ (1.02 * κ) * ε + 2.03 * ε * max 2.5 |Photometry.calc_obs_mag_no_dimming ws ls0 wv tr z| := by
  have hQ0 := contrast_pos C.contrast C.lum_pos
  have hκ' : 0 ≤ 1.02 * κ := by positivity
  have hge := restFluxCost_ge d hQ0 hκ'
  have hΛ := C.slope_ge
  have hK' : restFluxCost d Q (1.02 * κ) * ε ≤ 0.0099 :=
    le_trans (mul_le_mul_of_nonneg_right (by unfold obsFluxCost; linarith) M.eps_nonneg) hK
  have hs : κ * ε ≤ 0.0099 := le_trans (mul_le_mul_of_nonneg_right (by norm_num at hge ⊢; linarith) M.eps_nonneg) hK'
  obtain ⟨f, hf, b, hb, q, hq, l, hl, hr⟩ := hr
  have hflux := obs_flux_close M C hκ' (spectrum_close M C.lum_pos hκ hs hls) hK' hf hb hq
  obtain ⟨zp1, hz, g, hg, -⟩ := hf
  obtain ⟨c1, -, -, -, -, c6⟩ := obs_grid M C hz hg
  have hF := flux_pos c1.strictMono.monotone C.lum_pos C.filter C.live c6
  exact mag_err M (by unfold obsFluxCost; linarith) hK hF hflux hl hr

lemma zterm_err (M : Machine P A v ε) (hz : -1 < z) {zp1 l t : ℝ} (hzp : zp1 ∈ A.add 1 z) (hl : l ∈ Rounded.log10 v zp1) (ht : t ∈ A.mul 2.5 l) :
    |t - 2.5 * Jnp.log10 (1 + z)| ≤ 1.09 * ε + 2.03 * ε * max 2.5 |2.5 * Jnp.log10 (1 + z)| := by
  have h6 := M.small
  have hp : 0 < 1 + z := by linarith
  have w1 : Close (1 * (1.001 * ε)) zp1 (1 + z) := ((Close.refl hp.le).rnd M.tolA hzp).mono (by linarith)
  refine (log_err M (c := 2.5) zero_le_one (by norm_num at h6 ⊢; linarith) hp w1 hl ht).trans (le_of_eq ?_)
  have e : max 2.5 |2.5 * Jnp.log10 (1 + z)| = 2.5 * max 1 |Jnp.log10 (1 + z)| := by
    rw [abs_mul, mul_max_of_nonneg _ _ (by norm_num)]; norm_num
  rw [e, show |(2.5:ℝ)| = 2.5 by norm_num]; norm_num; ring

/-- **Size of the terms of the dimming** `μ(z) - 2.5 log10(1+z)`. -/
noncomputable def dimSize (z Om0 w0 wa h : ℝ) : ℝ :=
  max 5 |FlatWcdm.distance_modulus_to_z z Om0 w0 wa h| + max 2.5 |2.5 * Jnp.log10 (1 + z)|

/-- C118: the cosmological dimming, in magnitudes. -/
theorem C118_dimming (M : Machine P A v ε) (hO : PhysicalOm Om0) (hz : 0 < z) (hh : 0 < h) (hK : (distCost dc z w0 wa + 3) * ε ≤ 0.0099)
    {r : ℝ} (hr : r ∈ Rounded.cosmological_dimming P A v dc z Om0 w0 wa h) :
    |r - Photometry.cosmological_dimming z Om0 w0 wa h| ≤ 2.19 * (distCost dc z w0 wa + 4) * ε + 3.04 * ε * dimSize z Om0 w0 wa h := by
  obtain ⟨dm, hdm, zp1, hzp, l, hl, t, ht, hr⟩ := hr
  have hε := M.eps_nonneg
  have h6 := M.small
  have e1 := C117_distance_modulus M hO hz hh hK hdm
  have e2 := zterm_err M (by linarith) hzp hl ht
  have e := sub_err M e1 e2 hr
  refine e.trans ?_
  have n0 := distCost_nonneg dc hz.le w0 wa
  unfold dimSize
  have m1 := le_max_right 5 |FlatWcdm.distance_modulus_to_z z Om0 w0 wa h|
  have m2 := le_max_right 2.5 |2.5 * Jnp.log10 (1 + z)|
  have b0 : 0 ≤ max 2.5 |2.5 * Jnp.log10 (1 + z)| := (abs_nonneg _).trans m2
  generalize max 5 |FlatWcdm.distance_modulus_to_z z Om0 w0 wa h| = a at *
  generalize max 2.5 |2.5 * Jnp.log10 (1 + z)| = b at *
  generalize |2.5 * Jnp.log10 (1 + z)| = b' at *
  have a0 : 0 ≤ a := (abs_nonneg _).trans m1
  set K := distCost dc z w0 wa
  have s : 0 ≤ 2.18 * (K + 3) * ε + 2.03 * ε * a + (1.09 * ε + 2.03 * ε * b) := by positivity
  have s1 := mul_le_mul_of_nonneg_right h6 s
  have s2 := mul_le_mul_of_nonneg_left (add_le_add m1 m2) hε
  have p1 : 0 ≤ K * ε := by positivity
  have p2 : 0 ≤ ε * a := by positivity
  have p3 : 0 ≤ ε * b := by positivity
  norm_num at s1 ⊢
  nlinarith

/-- C118: the observed magnitude, in magnitudes. -/
theorem C118_obs_mag (M : Machine P A v ε) (hO : PhysicalOm Om0) (hz : 0 < z) (hh : 0 < h) {Q Λ κ : ℝ} {ws ls ls0 : Fin (n + 2) → ℝ}
    {wv tr : Fin (m + 1) → ℝ} (C : ObsConditions ε Q Λ ws ls0 wv tr z) (hκ : 0 ≤ κ) (hls : ∀ i, |ls i - ls0 i| ≤ κ * ε * ls0 i)
    (hK : obsFluxCost d Q Λ (1.02 * κ) * ε ≤ 0.0099) (hKd : (distCost dc z w0 wa + 3) * ε ≤ 0.0099) {r : ℝ}
    (hr : r ∈ Rounded.calc_obs_mag P A v d dc ws ls wv tr z Om0 w0 wa h) :
    |r - Photometry.calc_obs_mag ws ls0 wv tr z Om0 w0 wa h|
      ≤ ε * (1.1 * obsFluxCost d Q Λ (1.02 * κ) + 2.2 * (distCost dc z w0 wa + 4)
          + 3.1 * max 2.5 |Photometry.calc_obs_mag_no_dimming ws ls0 wv tr z| + 4.1 * dimSize z Om0 w0 wa h) := by
  obtain ⟨m0, hm, di, hd, hr⟩ := hr
  have hε := M.eps_nonneg
  have h6 := M.small
  have e1 := C118_obs_mag_no_dimming M C hκ hls hK hm
  have e2 := C118_dimming M hO hz hh hKd hd
  have e := sum_err M e1 e2 hr
  have e0 : Photometry.calc_obs_mag ws ls0 wv tr z Om0 w0 wa h
      = Photometry.calc_obs_mag_no_dimming ws ls0 wv tr z + Photometry.cosmological_dimming z Om0 w0 wa h := rfl
  rw [e0]
  refine e.trans ?_
  have n0 := distCost_nonneg dc hz.le w0 wa
  have n1 : 0 ≤ obsFluxCost d Q Λ (1.02 * κ) := by
    have hQ0 := contrast_pos C.contrast C.lum_pos
    have hge := restFluxCost_ge d hQ0 (show 0 ≤ 1.02 * κ by positivity)
    have hΛ := C.slope_ge
    have : 0 ≤ 1.02 * κ := by positivity
    unfold obsFluxCost; linarith
  have m1 := le_max_right 2.5 |Photometry.calc_obs_mag_no_dimming ws ls0 wv tr z|
  have m2 : |Photometry.cosmological_dimming z Om0 w0 wa h| ≤ dimSize z Om0 w0 wa h := by
    unfold Photometry.cosmological_dimming dimSize
    exact (abs_sub _ _).trans (add_le_add (le_max_right _ _) (le_max_right _ _))
  generalize max 2.5 |Photometry.calc_obs_mag_no_dimming ws ls0 wv tr z| = a at *
  generalize dimSize z Om0 w0 wa h = b at *
  have a0 : 0 ≤ a := (abs_nonneg _).trans m1
  have b0 : 0 ≤ b := (abs_nonneg _).trans m2
  set K := distCost dc z w0 wa
  set F := obsFluxCost d Q Λ (1.02 * κ)
  have s : 0 ≤ 1.09 * F * ε + 2.03 * ε * a + (2.19 * (K + 4) * ε + 3.04 * ε * b) := by positivity
  have s1 := mul_le_mul_of_nonneg_right h6 s
  have s2 := mul_le_mul_of_nonneg_left (add_le_add m1 m2) hε
  have p1 : 0 ≤ K * ε := by positivity
  have p2 : 0 ≤ ε * a := by positivity
  have p3 : 0 ≤ ε * b := by positivity
  have p4 : 0 ≤ F * ε := by positivity
  norm_num at s1 ⊢
  nlinarith

/-- C118: the dimming from a distance-modulus table. -/
theorem C118_dimming_from_table (M : Machine P A v ε) {S : ℝ} {zt mt : Fin (n + 2) → ℝ} (hzt : Monotone zt)
    (hgap : ∀ i : Fin (n + 1), Dtype.interpEps < (zt i.succ - zt i.castSucc) * (1 - A.u)) (hS : ∀ i, |mt i| ≤ S) (hz : -1 < z)
    {r : ℝ} (hr : r ∈ Rounded.cosmological_dimming_from_table A v z zt mt) :
    |r - Photometry.cosmological_dimming_from_table z zt mt| ≤ ε * (15 * S + 3.1 * max 2.5 |2.5 * Jnp.log10 (1 + z)| + 1.1) := by
  obtain ⟨dm, hdm, zp1, hzp, l, hl, t, ht, hr⟩ := hr
  have hε := M.eps_nonneg
  have h6 := M.small
  have hS0 : 0 ≤ S := (abs_nonneg _).trans (hS 0)
  have hI : |interp z zt mt| ≤ S := by
    obtain ⟨i, s, a, b, c⟩ := interp_convex hzt z
    rw [c]
    refine (abs_add_le _ _).trans ?_
    rw [abs_mul, abs_mul, abs_of_nonneg a, abs_of_nonneg (sub_nonneg.2 b)]
    have h1 := mul_le_mul_of_nonneg_left (hS i.castSucc) (sub_nonneg.2 b)
    have h2 := mul_le_mul_of_nonneg_left (hS i.succ) a
    linarith
  have q : (1 / (1 - A.u)) ^ 6 - 1 ≤ 6.1 * ε := by
    have t1 := G_pow_le M.tolA 6
    have t2 := exp_sub_one_le (x := ((6:ℕ):ℝ) * (1.001 * ε)) (c := 0.001) (by positivity) (by norm_num at h6 ⊢; linarith) (by norm_num at h6 ⊢; linarith)
    refine (sub_le_sub_right t1 1).trans (t2.trans ?_)
    norm_num; linarith
  have e1 : |dm - interp z zt mt| ≤ 12.2 * ε * S := by
    refine (interp_near hzt hgap hS hdm).2.trans ?_
    have := mul_le_mul_of_nonneg_right q (show 0 ≤ 2 * S by positivity)
    norm_num at this ⊢; linarith
  have e2 := zterm_err M hz hzp hl ht
  have e := sub_err M e1 e2 hr
  refine e.trans ?_
  have m2 := le_max_right 2.5 |2.5 * Jnp.log10 (1 + z)|
  have b0 : 0 ≤ max 2.5 |2.5 * Jnp.log10 (1 + z)| := (abs_nonneg _).trans m2
  generalize max 2.5 |2.5 * Jnp.log10 (1 + z)| = b at *
  generalize |2.5 * Jnp.log10 (1 + z)| = b' at *
  have s : 0 ≤ 12.2 * ε * S + (1.09 * ε + 2.03 * ε * b) := by positivity
  have s1 := mul_le_mul_of_nonneg_right h6 s
  have s2 := mul_le_mul_of_nonneg_left (add_le_add hI m2) hε
  have p2 : 0 ≤ ε * S := by positivity
  have p3 : 0 ≤ ε * b := by positivity
  norm_num at s1 ⊢
  nlinarith

end Dsps.Props
