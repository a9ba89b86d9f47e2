import Verif.Lemmas.NearSig
import Verif.Props.RoundDust

/-! C135: floating-point accuracy of the sigmoid-based relations.  The programs are those of `Verif/Model/RoundedMzr.lean`; the exact functions
they are compared with are the real-number models. -/
namespace Dsps.Props
open Jnp Fl Spec Dsps.Lemmas

variable {P A : Arith} {v ε : ℝ}

namespace Machine
lemma pow_small (M : Machine P A v ε) {k : ℕ} (hk : k ≤ 100) : (1 + ε) ^ k - 1 ≤ 1 / 2 := by
  have h0 := M.eps_nonneg
  have h6 := M.small
  have hk' : (k:ℝ) ≤ 100 := by exact_mod_cast hk
  have h1 : k * ε ≤ 100 * 1e-6 := mul_le_mul hk' h6 h0 (by norm_num)
  have := pow_sub_one_le h0 (h1.trans (by norm_num))
  norm_num at h1 this ⊢
  linarith

lemma near_bound (M : Machine P A v ε) {k : ℕ} (hk : k ≤ 100) {S x' x : ℝ} (h : NearE ε k S x' x) : |x' - x| ≤ 1.01 * k * ε * S := by
  have h0 := M.eps_nonneg
  have hk' : (k:ℝ) ≤ 100 := by exact_mod_cast hk
  have h1 : k * ε ≤ 100 * 1e-6 := mul_le_mul hk' M.small h0 (by norm_num)
  exact h.bound h0 (h1.trans (by norm_num))

lemma near_div (M : Machine P A v ε) {k : ℕ} {S x' x c c' : ℝ} (hc : c ≠ 0) (h : NearE ε k S x' x) (h' : NearE ε 2 |c| c' c) :
    c' ≠ 0 ∧ NearE ε (k + 3) (S / |c|) (x' / c') (x / c) := by
  have h0 := M.eps_nonneg
  have h6 := M.small
  have e1 : (1 + ε) ^ 2 - 1 ≤ 3 * ε := by norm_num at h6; nlinarith
  have e0 : 0 ≤ (1 + ε) ^ 2 - 1 := by nlinarith
  refine h.div h0 hc ?_ ?_ h'
  · have : ((1 + ε) ^ 2 - 1) ^ 2 ≤ (3 * ε) ^ 2 := pow_le_pow_left₀ e0 e1 2
    norm_num at h6
    nlinarith
  · norm_num at h6; linarith
end Machine

section sigmoid
variable {x x0 k ylo yhi xtp ytp lo hi : ℝ}

lemma sigmoid_near (M : Machine P A v ε) {r : ℝ} (hr : r ∈ Rounded.sigmoid A (Rounded.logistic v) x x0 k ylo yhi) :
    NearE ε 6 (|ylo| + |yhi - ylo|) r (Utils.sigmoid x x0 k ylo yhi) := by
  have hε := M.eps_nonneg
  obtain ⟨hd, hhd, d, hd', t, ht, s, hs, p, hp, hr⟩ := hr
  have n1 := NearE.of_rnd M.jax hhd le_rfl
  have n2 := NearE.of_rnd M.jax hd' le_rfl
  have n3 := ((NearE.refl (ε := ε) (le_refl |k|)).mul hε n2).rnd M.jax ht
  rw [← abs_mul] at n3
  have n4 : NearE ε 2 (|k * (x - x0)| + 0) t (k * (x - x0)) := n3.mono hε (by norm_num) (by simp)
  have := NearE.sigmoid_of hε M.jax M.lib (M.pow_small (by norm_num)) le_rfl n1 n4 (NearE.refl (le_refl |ylo|)) hs hp hr
  exact this.mono hε (by norm_num) (by simp)

/-- C135: the sigmoid `ylo + (yhi-ylo)/(1+exp(-k(x-x0)))` loses at most six roundings of its largest possible value — whatever the steepness and
however far `x` is from `x0`. -/
theorem C135_sigmoid (M : Machine P A v ε) {r : ℝ} (hr : r ∈ Rounded.sigmoid A (Rounded.logistic v) x x0 k ylo yhi) :
    |r - Utils.sigmoid x x0 k ylo yhi| ≤ 6.1 * ε * (|ylo| + |yhi - ylo|) := by
  have hε := M.eps_nonneg
  refine (M.near_bound (by norm_num) (sigmoid_near M hr)).trans ?_
  refine mul_le_mul_of_nonneg_right ?_ (by positivity)
  norm_num; linarith

lemma sig_slope_near (M : Machine P A v ε) {r : ℝ} (hr : r ∈ Rounded.sig_slope A v x xtp ytp x0 k lo hi) :
    NearE ε 9 (|ytp| + (|lo| + |hi - lo|) * |x - xtp|) r (Utils.sig_slope x xtp ytp x0 k lo hi) := by
  have hε := M.eps_nonneg
  obtain ⟨s, hs, d, hd, p, hp, hr⟩ := hr
  have n1 := sigmoid_near M hs
  have n2 := NearE.of_rnd M.jax hd le_rfl
  have n3 := (n1.mul hε n2).rnd M.jax hp
  exact ((NearE.refl (ε := ε) (le_refl |ytp|)).add hε n3).rnd M.jax hr

/-- C135: the double power law `_sig_slope`. -/
theorem C135_sig_slope (M : Machine P A v ε) {r : ℝ} (hr : r ∈ Rounded.sig_slope A v x xtp ytp x0 k lo hi) :
    |r - Utils.sig_slope x xtp ytp x0 k lo hi| ≤ 9.1 * ε * (|ytp| + (|lo| + |hi - lo|) * |x - xtp|) := by
  have hε := M.eps_nonneg
  refine (M.near_bound (by norm_num) (sig_slope_near M hr)).trans ?_
  refine mul_le_mul_of_nonneg_right ?_ (by positivity)
  norm_num; linarith
end sigmoid

section mzr

lemma log10_solar : -2 ≤ Jnp.log10 0.012 ∧ Jnp.log10 0.012 ≤ -1 := by
  unfold Jnp.log10 Real.logb
  have l := log10_bounds
  have hp : (0:ℝ) < Real.log 10 := by linarith [l.1]
  rw [le_div_iff₀ hp, div_le_iff₀ hp]
  constructor
  · rw [show -2 * Real.log 10 = Real.log ((10:ℝ) ^ (-2:ℤ)) by rw [Real.log_zpow]; norm_num]
    exact Real.log_le_log (by norm_num) (by norm_num)
  · rw [show -1 * Real.log 10 = Real.log ((10:ℝ) ^ (-1:ℤ)) by rw [Real.log_zpow]; norm_num]
    exact Real.log_le_log (by norm_num) (by norm_num)

lemma solar_near (M : Machine P A v ε) {r : ℝ} (hr : r ∈ Rounded.LGMET_SOLAR P A v) : NearE ε 3 2 r (Jnp.log10 0.012) := by
  have hε := M.eps_nonneg
  have h6 := M.small
  obtain ⟨x, hx, l, hl, hr⟩ := hr
  have hs := log10_solar
  have hrel := P.rel _ _ hx
  have hu : P.u * |(0.012:ℝ)| ≤ ε * 0.012 := by rw [abs_of_pos (by norm_num)]; exact mul_le_mul_of_nonneg_right M.python (by norm_num)
  obtain ⟨b1, b2⟩ := abs_le.1 (hrel.trans hu)
  have hx0 : 0 < x := by norm_num at b1 b2 h6 ⊢; linarith
  have l10 := log10_bounds
  have hp : (0:ℝ) < Real.log 10 := by linarith [l10.1]
  have hlog : |Real.log x - Real.log 0.012| ≤ 1.01 * ε := by
    rw [← Real.log_div hx0.ne' (by norm_num), abs_le]
    have q1 : 1 - ε ≤ x / 0.012 := by rw [le_div_iff₀ (by norm_num)]; linarith
    have q2 : x / 0.012 ≤ 1 + ε := by rw [div_le_iff₀ (by norm_num)]; linarith
    have q0 : 0 < x / 0.012 := by positivity
    constructor
    · have := Real.one_sub_inv_le_log_of_pos q0
      have q3 : (x / 0.012)⁻¹ ≤ 1 + 1.01 * ε := by
        rw [inv_le_iff_one_le_mul₀ q0]
        have q4 : (1 + 1.01 * ε) * (1 - ε) ≤ (1 + 1.01 * ε) * (x / 0.012) := mul_le_mul_of_nonneg_left q1 (by linarith)
        refine le_trans ?_ q4
        norm_num at h6 ⊢
        nlinarith
      linarith
    · have := Real.log_le_sub_one_of_pos q0
      linarith
  have hl2 : |Jnp.log10 x - Jnp.log10 0.012| ≤ 0.5 * ε := by
    unfold Jnp.log10 Real.logb
    rw [← sub_div, abs_div, abs_of_pos hp, div_le_iff₀ hp]
    refine hlog.trans ?_
    nlinarith [l10.1]
  have hl' : |l - Jnp.log10 x| ≤ v * max 1 |Jnp.log10 x| := hl
  have n2 : NearE ε 2 2 l (Jnp.log10 0.012) := by
    refine ⟨by rw [abs_le]; constructor <;> linarith [hs.1, hs.2], ?_⟩
    have t := abs_add_le (l - Jnp.log10 x) (Jnp.log10 x - Jnp.log10 0.012)
    rw [sub_add_sub_cancel] at t
    have m : max 1 |Jnp.log10 x| ≤ 2.1 := by
      refine max_le (by norm_num) ?_
      obtain ⟨c1, c2⟩ := abs_le.1 hl2
      rw [abs_le]; norm_num at h6 c1 c2 ⊢; constructor <;> linarith [hs.1, hs.2]
    have m2 : v * max 1 |Jnp.log10 x| ≤ ε * 2.1 := mul_le_mul M.lib m (le_trans zero_le_one (le_max_left _ _)) hε
    norm_num at *
    nlinarith
  exact n2.rnd M.jax hr

/-- **Specification.** size of the terms of the relation at the present epoch -/
noncomputable def t0Size (logsm xtp ytp slope_lo slope_hi : ℝ) : ℝ := |ytp| + (|slope_lo| + |slope_hi - slope_lo|) * |logsm - xtp| + 2

/-- C135: the present-day relations of both modules and the relation of Maiolino et al. -/
theorem C135_mzr_t0 (M : Machine P A v ε) {logsm y0 x0 k lo hi logm0 k0 : ℝ} :
    (∀ r ∈ Rounded.mzr_model_t0 P A v logsm y0 x0 k lo hi,
      |r - Mzr.mzr_model_t0 logsm y0 x0 k lo hi| ≤ 10.2 * ε * t0Size logsm x0 y0 lo hi) ∧
    (∀ r ∈ Rounded.umzr_model_t0 P A v logsm y0 x0 k lo hi,
      |r - Umzr.mzr_model_t0 logsm y0 x0 k lo hi| ≤ 10.2 * ε * t0Size logsm 10.5 y0 lo hi) ∧
    (∀ r ∈ Rounded.maiolino08_metallicity_evolution P A logsm logm0 k0,
      |r - Mzr.maiolino08_metallicity_evolution logsm logm0 k0| ≤ 8.1 * ε * (12 + 0.0864 * (logsm - logm0) ^ 2 + |k0|)) := by
  have hε := M.eps_nonneg
  refine ⟨fun r hr => ?_, fun r hr => ?_, fun r hr => ?_⟩
  · obtain ⟨m, hm, z, hz, hr⟩ := hr
    have := ((sig_slope_near M hm).add hε (solar_near M hz)).rnd M.jax hr
    refine (M.near_bound (by norm_num) this).trans ?_
    refine mul_le_mul_of_nonneg_right ?_ this.size_nonneg
    norm_num; linarith
  · obtain ⟨m, hm, z, hz, hr⟩ := hr
    have := ((sig_slope_near M hm).add hε (solar_near M hz)).rnd M.jax hr
    have h2 := M.near_bound (by norm_num) this
    unfold Umzr.MZR_T0_XTP at h2 this
    refine h2.trans ?_
    refine mul_le_mul_of_nonneg_right ?_ this.size_nonneg
    norm_num; linarith
  · obtain ⟨x, hx, xsq, hq, c, hc, p, hp, s, hs, hr⟩ := hr
    have n1 := NearE.of_rnd M.jax hx le_rfl
    have n2 := (n1.mul hε n1).rnd M.jax hq
    have n3 := NearE.lit M.python M.jax hc le_rfl
    have n4 := (n3.mul hε n2).rnd M.jax hp
    have n5 := ((NearE.refl (ε := ε) (le_refl |(-12.0:ℝ)|)).sub hε n4).rnd M.jax hs
    have n6 := (n5.add hε (NearE.refl (ε := ε) (le_refl |k0|))).rnd M.jax hr
    have n7 : NearE ε 8 (12 + 0.0864 * (logsm - logm0) ^ 2 + |k0|) r (Mzr.maiolino08_metallicity_evolution logsm logm0 k0) := by
      refine n6.mono hε (by norm_num) (le_of_eq ?_)
      rw [← abs_mul (logsm - logm0), abs_of_nonneg (mul_self_nonneg (logsm - logm0)), abs_of_nonneg (by norm_num : (0:ℝ) ≤ 0.0864), abs_of_nonpos (by norm_num : (-12.0:ℝ) ≤ 0)]
      norm_num; ring
    refine (M.near_bound (by norm_num) n7).trans ?_
    refine mul_le_mul_of_nonneg_right ?_ n7.size_nonneg
    norm_num; linarith

/-- the sign of a machine result -/
lemma rnd_nonpos {x r : ℝ} (hx : x ≤ 0) (hr : r ∈ A.rnd x) : r ≤ 0 := by
  have := A.rel x r hr
  rw [abs_of_nonpos hx] at this
  have h1 := (abs_le.1 this).2
  nlinarith [A.u_lt_one]

lemma lookback_near (M : Machine P A v ε) {t r : ℝ} (hr : r ∈ Rounded.t_lookback A t) :
    NearE ε 1 (max (12.5 - t) 0) r (if 12.5 - t < 0 then 0 else 12.5 - t) := by
  obtain ⟨q, hq, rfl⟩ := hr
  have hq' : q ∈ A.rnd (12.5 - t) := hq
  rcases le_or_gt 0 (12.5 - t) with h | h
  · have := (NearE.of_rnd (ε := ε) M.jax hq' le_rfl).clip_neg
    rw [abs_of_nonneg h] at this
    rw [max_eq_left h]; exact this
  · have e : (if q < 0 then 0 else q) = 0 := by
      split_ifs with h1
      · rfl
      · exact le_antisymm (rnd_nonpos h.le hq') (not_lt.1 h1)
    rw [e, if_pos h, max_eq_right h.le]
    exact (NearE.refl (by simp)).mono M.eps_nonneg (by norm_num) le_rfl

lemma affine_near (M : Machine P A v ε) {m c0 c1 r : ℝ} (hr : r ∈ Rounded.affine A m c0 c1) :
    NearE ε 2 (|c0| + |c1| * |m|) r (c0 + c1 * m) := by
  have hε := M.eps_nonneg
  obtain ⟨p, hp, hr⟩ := hr
  have n1 := NearE.of_rnd (ε := ε) M.jax hp (le_of_eq (abs_mul c1 m))
  exact ((NearE.refl (ε := ε) (le_refl |c0|)).add hε n1).rnd M.jax hr

/-- **Specification.** size of the terms of the evolution with time: `Y` and `E` bound the two mass-dependent coefficients, `T` is the lookback
time (at least 0) plus the break time -/
noncomputable def evolSize (Y E T tc : ℝ) : ℝ := Y + (Y / tc + (E + Y / tc) * (1 + 0.4 * T)) * T

lemma evol_near (M : Machine P A v ε) {tl tl' TL tc tc' xtp' y y' Y es es' E k' ls dz : ℝ} (htc : 0 < tc) (hTL : 0 ≤ TL) (n1 : NearE ε 1 TL tl' tl)
    (n2 : NearE ε 2 Y y' y) (n3 : NearE ε 2 E es' es) (n4 : NearE ε 2 tc tc' tc) (n4' : NearE ε 2 tc xtp' tc) (n5 : NearE ε 2 1.6 k' 1.6)
    (hls : ls ∈ A.div y' tc') (hdz : dz ∈ Rounded.sig_slope A v tl' xtp' y' tc' k' ls es') :
    NearE ε 21 (evolSize Y E (TL + tc) tc) dz (Utils.sig_slope tl tc y tc 1.6 (y / tc) es) := by
  have hε := M.eps_nonneg
  have hY := n2.size_nonneg
  have hE := n3.size_nonneg
  have d0 := M.near_div htc.ne' n2 (c' := tc') (by rwa [abs_of_pos htc])
  rw [abs_of_pos htc] at d0
  have n6 := d0.2.rnd M.jax hls
  obtain ⟨s, ⟨hd, hhd, d, hd', t, ht, q, hq, p, hp, hs⟩, d2, hd2, p2, hp2, hr⟩ := hdz
  have n7 := (n3.sub hε n6).rnd M.jax hhd
  have n8 := (n1.sub hε n4).rnd M.jax hd'
  have n9 := (n5.mul hε n8).rnd M.jax ht
  have n10 : NearE ε 6 (|1.6 * (tl - tc)| + 1.6 * (TL + tc)) t (1.6 * (tl - tc)) :=
    n9.mono hε (by norm_num) (by linarith [abs_nonneg (1.6 * (tl - tc))])
  have n11 := NearE.sigmoid_of hε M.jax M.lib (M.pow_small (by norm_num)) (by positivity) n7 n10 n6 hq hp hs
  have n12 := (n1.sub hε n4').rnd M.jax hd2
  have n13 := (n11.mul hε n12).rnd M.jax hp2
  have n14 := (n2.add hε n13).rnd M.jax hr
  refine n14.mono hε (by norm_num) (le_of_eq ?_)
  unfold evolSize
  ring

/-- **Specification.** size of the terms of `mzr_model`'s evolution with time -/
noncomputable def mzrEvolSize (logsm t c0_y c1_y tc c0_s c1_s : ℝ) : ℝ :=
  evolSize (|c0_y| + |c1_y| * |logsm|) (|c0_s| + |c1_s| * |logsm|) (max (12.5 - t) 0 + tc) tc

lemma mzr_evol_near (M : Machine P A v ε) {logsm t c0_y c1_y tc c0_s c1_s r : ℝ} (htc : 0 < tc)
    (hr : r ∈ Rounded.mzr_evolution_model P A v logsm t c0_y c1_y tc c0_s c1_s) :
    NearE ε 21 (mzrEvolSize logsm t c0_y c1_y tc c0_s c1_s) r (Mzr.mzr_evolution_model logsm t c0_y c1_y tc c0_s c1_s) := by
  have hε := M.eps_nonneg
  obtain ⟨tl, htl, y, hy, tc', htc', es, hes, k, hk, ls, hls, dz, hdz, rfl⟩ := hr
  have n4 : NearE ε 2 tc tc' tc := by
    have : tc' ∈ A.rnd tc := by have h : tc' ∈ A.rnd (tc + 0) := htc'; rwa [add_zero] at h
    exact (NearE.of_rnd (ε := ε) M.jax this (le_of_eq (abs_of_pos htc))).mono hε (by norm_num) le_rfl
  have n5 : NearE ε 2 1.6 k 1.6 := NearE.lit M.python M.jax hk (le_of_eq (abs_of_pos (by norm_num)))
  have := evol_near M htc (le_max_right _ _) (lookback_near M htl) (affine_near M hy) (affine_near M hes) n4 n4 n5 hls hdz
  have h2 := this.clip_pos
  unfold mzrEvolSize Mzr.mzr_evolution_model Mzr.delta_logz_at_t_lookback Mzr.get_p_at_lgmstar Mzr.delta_logz_vs_t_lookback Mzr.MZR_EVOL_K
    Mzr.MZR_EVOL_T0
  dsimp only
  rw [add_zero]
  exact h2

lemma umzr_evol_near (M : Machine P A v ε) {logsm t c0_y c1_y c0_s c1_s r : ℝ}
    (hr : r ∈ Rounded.umzr_evolution_model P A v logsm t c0_y c1_y c0_s c1_s) :
    NearE ε 21 (mzrEvolSize logsm t c0_y c1_y 8.44 c0_s c1_s) r (Umzr.mzr_evolution_model logsm t c0_y c1_y c0_s c1_s) := by
  have hε := M.eps_nonneg
  obtain ⟨tl, htl, y, hy, es, hes, xtp, hxtp, tc', htc', k, hk, ls, hls, dz, hdz, rfl⟩ := hr
  have n4 : NearE ε 2 8.44 tc' 8.44 := NearE.lit M.python M.jax htc' (le_of_eq (abs_of_pos (by norm_num)))
  have n4' : NearE ε 2 8.44 xtp 8.44 := NearE.lit M.python M.jax hxtp (le_of_eq (abs_of_pos (by norm_num)))
  have n5 : NearE ε 2 1.6 k 1.6 := NearE.lit M.python M.jax hk (le_of_eq (abs_of_pos (by norm_num)))
  have := evol_near M (by norm_num) (le_max_right _ _) (lookback_near M htl) (affine_near M hy) (affine_near M hes) n4 n4' n5 hls hdz
  exact this.clip_pos

/-- C135: the evolution with time, for both modules (in `umzr` the break time is 8.44 Gyr). -/
theorem C135_mzr_evolution (M : Machine P A v ε) {logsm t c0_y c1_y tc c0_s c1_s : ℝ} :
    (0 < tc → ∀ r ∈ Rounded.mzr_evolution_model P A v logsm t c0_y c1_y tc c0_s c1_s,
      |r - Mzr.mzr_evolution_model logsm t c0_y c1_y tc c0_s c1_s| ≤ 21.3 * ε * mzrEvolSize logsm t c0_y c1_y tc c0_s c1_s) ∧
    (∀ r ∈ Rounded.umzr_evolution_model P A v logsm t c0_y c1_y c0_s c1_s,
      |r - Umzr.mzr_evolution_model logsm t c0_y c1_y c0_s c1_s| ≤ 21.3 * ε * mzrEvolSize logsm t c0_y c1_y 8.44 c0_s c1_s) := by
  have hε := M.eps_nonneg
  refine ⟨fun htc r hr => ?_, fun r hr => ?_⟩
  · have n := mzr_evol_near M htc hr
    refine (M.near_bound (by norm_num) n).trans (mul_le_mul_of_nonneg_right ?_ n.size_nonneg)
    norm_num; linarith
  · have n := umzr_evol_near M hr
    refine (M.near_bound (by norm_num) n).trans (mul_le_mul_of_nonneg_right ?_ n.size_nonneg)
    norm_num; linarith

/-- C135: the complete relation of `mzr.py`. -/
theorem C135_mzr_model (M : Machine P A v ε) {logsm t y0 x0 k lo hi c0_y c1_y tc c0_s c1_s r : ℝ} (htc : 0 < tc)
    (hr : r ∈ Rounded.mzr_model P A v logsm t y0 x0 k lo hi c0_y c1_y tc c0_s c1_s) :
    |r - Mzr.mzr_model logsm t y0 x0 k lo hi c0_y c1_y tc c0_s c1_s|
      ≤ 22.3 * ε * (t0Size logsm x0 y0 lo hi + mzrEvolSize logsm t c0_y c1_y tc c0_s c1_s) := by
  have hε := M.eps_nonneg
  obtain ⟨z0, ⟨m, hm, z, hz, hz0⟩, dz, hdz, hr⟩ := hr
  have n1 := ((sig_slope_near M hm).add hε (solar_near M hz)).rnd M.jax hz0
  have n := (n1.add hε (mzr_evol_near M htc hdz)).rnd M.jax hr
  refine (M.near_bound (by norm_num) n).trans (mul_le_mul_of_nonneg_right ?_ n.size_nonneg)
  norm_num; linarith

/-- C135: the complete relation of `umzr.py`. -/
theorem C135_umzr_model (M : Machine P A v ε) {logsm t r : ℝ} {p : Umzr.MZRParams} (hr : r ∈ Rounded.umzr_model P A v logsm t p) :
    |r - Umzr.mzr_model logsm t p| ≤ 22.3 * ε * (t0Size logsm 10.5 p.mzr_t0_ytp p.mzr_t0_slope_lo p.mzr_t0_slope_hi
      + mzrEvolSize logsm t p.c0_y_at_tlook_c p.c1_y_at_tlook_c 8.44 p.c0_early_time_slope p.c1_early_time_slope) := by
  have hε := M.eps_nonneg
  obtain ⟨z0, ⟨m, hm, z, hz, hz0⟩, dz, hdz, hr⟩ := hr
  have n1 := ((sig_slope_near M hm).add hε (solar_near M hz)).rnd M.jax hz0
  have n := (n1.add hε (umzr_evol_near M hdz)).rnd M.jax hr
  have h2 := M.near_bound (by norm_num) n
  have h3 := n.size_nonneg
  unfold Umzr.MZR_T0_XTP at h2 h3
  refine h2.trans (mul_le_mul_of_nonneg_right ?_ h3)
  norm_num; linarith

end mzr

section bounded

/-- **Specification.** size of the terms of a bounded parameter -/
noncomputable def boundSize (b : ℝ × ℝ) : ℝ := |b.1| + (|b.1| + |b.2|) * (1 + 0.0125 * (|b.1| + |b.2|))

lemma bounded_near (M : Machine P A v ε) {u r : ℝ} {b : ℝ × ℝ} (hr : r ∈ Rounded.get_square_bounded_param P A (Rounded.logistic v) u b) :
    NearE ε 14 (boundSize b) r (Umzr.get_square_bounded_param u b) := by
  have hε := M.eps_nonneg
  obtain ⟨lo, hlo, hi, hhi, s, hs, mid, hmid, k, hk, hd, hhd, d, hd', t, ht, q, hq, p, hp, hr⟩ := hr
  have n1 := NearE.lit M.python M.jax hlo le_rfl
  have n2 := NearE.lit M.python M.jax hhi le_rfl
  have n3 := (n1.add hε n2).rnd M.jax hs
  have n4 := ((NearE.refl (ε := ε) (le_of_eq (abs_of_pos (by norm_num : (0:ℝ) < 0.5)))).mul hε n3).rnd M.jax hmid
  have n5 : NearE ε 2 0.1 k 0.1 := NearE.lit M.python M.jax hk (le_of_eq (abs_of_pos (by norm_num)))
  have n6 := (n4.sub_right hε (x := u)).rnd M.jax hd'
  have n7 := (n5.mul hε n6).rnd M.jax ht
  have n8 := (n2.sub hε n1).rnd M.jax hhd
  have n9 : NearE ε 8 (|0.1 * (u - 0.5 * (b.1 + b.2))| + 0.1 * (0.5 * (|b.1| + |b.2|))) t (0.1 * (u - 0.5 * (b.1 + b.2))) := by
    refine n7.mono hε (by norm_num) (le_of_eq ?_)
    rw [abs_mul, abs_of_pos (by norm_num : (0:ℝ) < 0.1)]; ring
  have n10 := NearE.sigmoid_of hε M.jax M.lib (M.pow_small (by norm_num)) (by positivity) n8 n9 n1 hq hp hr
  refine n10.mono hε (by norm_num) (le_of_eq ?_)
  unfold boundSize
  norm_num; ring

lemma slope_hi_near (M : Machine P A v ε) {lo lo' S u r : ℝ} (h : NearE ε 14 S lo' lo)
    (hr : r ∈ Rounded.get_mzr_t0_slope_hi_from_unbounded P A (Rounded.logistic v) lo' u) :
    NearE ε 22 S r (Umzr.get_mzr_t0_slope_hi_from_unbounded lo u) := by
  have hε := M.eps_nonneg
  obtain ⟨k, hk, hd, hhd, d, hd', t, ht, q, hq, p, hp, hr⟩ := hr
  have n1 := (h.sub hε (NearE.refl (ε := ε) (le_refl |(0.0:ℝ)|))).rnd M.jax hhd
  have n5 : NearE ε 2 0.1 k 0.1 := NearE.lit M.python M.jax hk (le_of_eq (abs_of_pos (by norm_num)))
  have n6 := NearE.of_rnd (ε := ε) M.jax hd' le_rfl
  have n7 := (n5.mul hε n6).rnd M.jax ht
  have n9 : NearE ε 4 (|0.1 * (u - 0.0)| + 0) t (0.1 * (u - 0.0)) := by
    refine n7.mono hε (by norm_num) (le_of_eq ?_)
    rw [abs_mul, abs_of_pos (by norm_num : (0:ℝ) < 0.1), add_zero]
  have n10 := NearE.sigmoid_of hε M.jax M.lib (M.pow_small (by norm_num)) le_rfl n1 n9 (NearE.refl (ε := ε) (le_refl |(0.0:ℝ)|)) hq hp hr
  have e : (0.0:ℝ) = 0 := by norm_num
  refine n10.mono hε (by norm_num) (le_of_eq ?_)
  rw [e, abs_zero]; ring

/-- C135: the parameters obtained from unbounded ones are accurate to a few hundred roundings for **every** `u`, however large: each of the nine
fields is within `530 ε` of its exact value. -/
theorem C135_bounded_params (M : Machine P A v ε) {u : Umzr.MZRUParams} {r : Umzr.MZRParams} (hr : r ∈ Rounded.get_bounded_mzr_params P A (Rounded.logistic v) u) :
    ∀ i, |r.toArray i - (Umzr.get_bounded_mzr_params u).toArray i| ≤ 530 * ε := by
  have hε := M.eps_nonneg
  obtain ⟨a, ha, hi, hhi, rfl⟩ := hr
  have key : ∀ i, |a i - Umzr.get_square_bounded_param (u.toArray i) (Umzr.MZR_PBDICT i)| ≤ 530 * ε := by
    intro i
    have n := bounded_near M (ha i)
    have hb : boundSize (Umzr.MZR_PBDICT i) ≤ 37 := by
      unfold boundSize Umzr.MZR_PBDICT
      fin_cases i <;> simp <;> norm_num [abs_of_pos, abs_of_neg]
    refine (M.near_bound (by norm_num) n).trans ?_
    have h1 := mul_le_mul_of_nonneg_left hb (show 0 ≤ 1.01 * ((14:ℕ):ℝ) * ε by positivity)
    refine h1.trans ?_
    norm_num; nlinarith
  have h4 := slope_hi_near M (bounded_near M (ha 3)) hhi
  have hb : boundSize (Umzr.MZR_PBDICT 3) ≤ 1.3 := by
    unfold boundSize Umzr.MZR_PBDICT
    simp; norm_num [abs_of_pos, abs_of_neg]
  have h5 : |hi - Umzr.get_mzr_t0_slope_hi_from_unbounded (Umzr.get_square_bounded_param (u.toArray 3) (Umzr.MZR_PBDICT 3)) u.u_mzr_t0_slope_hi|
      ≤ 530 * ε := by
    refine (M.near_bound (by norm_num) h4).trans ?_
    have h1 := mul_le_mul_of_nonneg_left hb (show 0 ≤ 1.01 * ((22:ℕ):ℝ) * ε by positivity)
    refine h1.trans ?_
    norm_num; nlinarith
  intro i
  fin_cases i
  · exact key 0
  · exact key 1
  · exact key 2
  · exact key 3
  · exact h5
  · exact key 5
  · exact key 6
  · exact key 7
  · exact key 8

end bounded

section imf

lemma ten_near (M : Machine P A v ε) {l l' r : ℝ} (hl : |l| ≤ 1) (h : NearE ε 2 |l| l' l) (hr : r ∈ Rounded.exp10 v l') :
    NearE ε 6 (exp10 l) r (exp10 l) := by
  have hε := M.eps_nonneg
  have h6 := M.small
  have hp : 0 < exp10 l := by unfold Jnp.exp10; positivity
  have l10 := log10_bounds
  have he : |l' - l| ≤ 2.001 * ε := by
    refine h.2.trans ?_
    have : ((1 + ε) ^ 2 - 1) * |l| ≤ ((1 + ε) ^ 2 - 1) * 1 := mul_le_mul_of_nonneg_left hl (by nlinarith)
    norm_num at h6 ⊢
    nlinarith
  have c := close_exp10 M he hr
  have c' : Close (5.7 * ε) r (exp10 l) := c.mono (by
    have : Real.log 10 * (2.001 * ε) ≤ 2.303 * (2.001 * ε) := mul_le_mul_of_nonneg_right l10.2 (by positivity)
    norm_num at this ⊢; linarith)
  have h1 : 5.7 * ε ≤ 0.001 := by norm_num at h6 ⊢; linarith
  refine ⟨le_of_eq (abs_of_pos hp), ?_⟩
  have hx0 : 0 ≤ 5.7 * ε := by positivity
  have hx1 : 5.7 * ε ≤ 1 / 100 := by linarith
  refine (c'.rel hx0 hx1).trans (mul_le_mul_of_nonneg_right ?_ hp.le)
  have hb : 1 + (6:ℕ) * ε ≤ (1 + ε) ^ 6 := one_add_mul_le_pow (by linarith) 6
  norm_num at hb h6 ⊢
  nlinarith

/-- **Specification.** size of the terms of the double power law in the age; the break `b` and the steepness are themselves inexact -/
noncomputable def ageSlopeSize (x a b k1 d e : ℝ) : ℝ := |a| + (|d| + (|d| + |e|) * (1 + k1 * |b| / 4)) * (|x - b| + |b|)

lemma age_slope_near (M : Machine P A v ε) {x a a' b b' l l' k1 d d' e e' r : ℝ} (hl : |l| ≤ 1) (na : NearE ε 2 |a| a' a)
    (nb : NearE ε 2 |b| b' b) (nl : NearE ε 2 |l| l' l) (nd : NearE ε 2 |d| d' d) (ne : NearE ε 2 |e| e' e) (hk : k1 ∈ Rounded.exp10 v l')
    (hr : r ∈ Rounded.sig_slope A v x b' a' b' k1 d' e') :
    NearE ε 21 (ageSlopeSize x a b (exp10 l) d e) r (Utils.sig_slope x b a b (exp10 l) d e) := by
  have hε := M.eps_nonneg
  have hp : 0 < exp10 l := by unfold Jnp.exp10; positivity
  have nk := ten_near M hl nl hk
  obtain ⟨s, ⟨hd, hhd, dd, hd', t, ht, q, hq, p, hp', hs⟩, d2, hd2, p2, hp2, hr⟩ := hr
  have n1 := (ne.sub hε nd).rnd M.jax hhd
  have n2 := (nb.sub_right hε (x := x)).rnd M.jax hd'
  have n3 := (nk.mul hε n2).rnd M.jax ht
  have n4 : NearE ε 10 (|exp10 l * (x - b)| + exp10 l * |b|) t (exp10 l * (x - b)) := by
    refine n3.mono hε (by norm_num) (le_of_eq ?_)
    rw [abs_mul, abs_of_pos hp]; ring
  have n5 := NearE.sigmoid_of hε M.jax M.lib (M.pow_small (by norm_num)) (by positivity) n1 n4 nd hq hp' hs
  have n6 := (nb.sub_right hε (x := x)).rnd M.jax hd2
  have n7 := (n5.mul hε n6).rnd M.jax hp2
  have n8 := (na.add hε n7).rnd M.jax hr
  refine n8.mono hε (by norm_num) (le_of_eq ?_)
  unfold ageSlopeSize
  rw [add_comm |e| |d|]

/-- **Specification.** size of the terms of the returned mass -/
noncomputable def returnedSize (x : ℝ) (p : SurvivingMstar.Params) : ℝ :=
  |p.h| + (ageSlopeSize x p.a p.b (10 ^ p.lgk1) p.d p.e + |p.h|) * (1 + 10 ^ p.lgk2 * |p.f| / 4)

lemma returned_near (M : Machine P A v ε) {x r : ℝ} {p q : SurvivingMstar.Params} (h1 : |p.lgk1| ≤ 1) (h2 : |p.lgk2| ≤ 1)
    (hq : q ∈ Rounded.litSurviving P A p) (hr : r ∈ Rounded.returned_mass A v x q) :
    NearE ε 35 (returnedSize x p) r (SurvivingMstar.returned_mass x p.a p.b p.lgk1 p.d p.e p.f p.lgk2 p.h) := by
  have hε := M.eps_nonneg
  obtain ⟨qa, qb, ql, qd, qe, qf, ql2, qh⟩ := hq
  have L : ∀ {y y' : ℝ}, y' ∈ Rounded.lit P A y → NearE ε 2 |y| y' y := fun h => NearE.lit M.python M.jax h le_rfl
  obtain ⟨k1, hk1, k2, hk2, z, hz, hd, hhd, d, hd', t, ht, w, hw, m, hm, hr⟩ := hr
  have nz := age_slope_near M h1 (L qa) (L qb) (L ql) (L qd) (L qe) hk1 hz
  have nk := ten_near M h2 (L ql2) hk2
  have hp : 0 < exp10 p.lgk2 := by unfold Jnp.exp10; positivity
  have n1 := (nz.sub hε (L qh)).rnd M.jax hhd
  have n2 := ((L qf).sub_right hε (x := x)).rnd M.jax hd'
  have n3 := (nk.mul hε n2).rnd M.jax ht
  have n4 : NearE ε 10 (|exp10 p.lgk2 * (x - p.f)| + exp10 p.lgk2 * |p.f|) t (exp10 p.lgk2 * (x - p.f)) := by
    refine n3.mono hε (by norm_num) (le_of_eq ?_)
    rw [abs_mul, abs_of_pos hp]; ring
  have n5 := NearE.sigmoid_of hε M.jax M.lib (M.pow_small (by norm_num)) (by positivity) n1 n4 (L qh) hw hm hr
  exact n5.mono hε (by norm_num) le_rfl

/-- C135: the surviving fraction, for any parameters given as decimals (steepnesses between `10^-1` and `10`). -/
theorem C135_surviving (M : Machine P A v ε) {x r : ℝ} {p q : SurvivingMstar.Params} (h1 : |p.lgk1| ≤ 1) (h2 : |p.lgk2| ≤ 1)
    (hq : q ∈ Rounded.litSurviving P A p) (hr : r ∈ Rounded.surviving_mstar A v x q) :
    |r - SurvivingMstar.surviving_mstar x p| ≤ 36.4 * ε * (1 + returnedSize x p) := by
  have hε := M.eps_nonneg
  obtain ⟨m, hm, hr⟩ := hr
  have n := ((NearE.refl (ε := ε) (le_of_eq abs_one)).sub hε (returned_near M h1 h2 hq hm)).rnd M.jax hr
  refine (M.near_bound (by norm_num) n).trans (mul_le_mul_of_nonneg_right ?_ n.size_nonneg)
  norm_num; linarith

/-- C135: the mass locked in remnants, relative to its exact value. -/
theorem C135_remnant (M : Machine P A v ε) {x r : ℝ} {p q : RemnantMass.Params} (h1 : |p.lgk1| ≤ 1)
    (hs : (49.1 * ageSlopeSize x p.a p.b (10 ^ p.lgk1) p.d p.e + 1.1) * ε ≤ 0.0099)
    (hq : q ∈ Rounded.litRemnant P A p) (hr : r ∈ Rounded.remnant_mass A v x q) :
    |r - RemnantMass.remnant_mass x p|
      ≤ 1.02 * (49.1 * ageSlopeSize x p.a p.b (10 ^ p.lgk1) p.d p.e + 1.1) * ε * RemnantMass.remnant_mass x p := by
  have hε := M.eps_nonneg
  obtain ⟨qa, qb, ql, qd, qe⟩ := hq
  have L : ∀ {y y' : ℝ}, y' ∈ Rounded.lit P A y → NearE ε 2 |y| y' y := fun h => NearE.lit M.python M.jax h le_rfl
  obtain ⟨k1, hk1, l, hl, hr⟩ := hr
  have nz := age_slope_near M h1 (L qa) (L qb) (L ql) (L qd) (L qe) hk1 hl
  have hz := M.near_bound (by norm_num) nz
  have c := close_exp10 M hz hr
  have l10 := log10_bounds
  have hS := nz.size_nonneg
  change 0 ≤ ageSlopeSize x p.a p.b (10 ^ p.lgk1) p.d p.e at hS
  change Close (Real.log 10 * (1.01 * ((21:ℕ):ℝ) * ε * ageSlopeSize x p.a p.b (10 ^ p.lgk1) p.d p.e) + 1.001 * ε) r (RemnantMass.remnant_mass x p) at c
  set S := ageSlopeSize x p.a p.b (10 ^ p.lgk1) p.d p.e
  refine M.rel (K := 49.1 * S + 1.1) (c.mono ?_) (by positivity) hs
  have hx : 0 ≤ ε * S := by positivity
  have : Real.log 10 * (1.01 * ((21:ℕ):ℝ) * ε * S) ≤ 2.303 * (1.01 * ((21:ℕ):ℝ) * ε * S) := mul_le_mul_of_nonneg_right l10.2 (by positivity)
  norm_num at this ⊢
  nlinarith

end imf
end Dsps.Props
