import Verif.Lemmas.GenMore
import Verif.Props.Dust
import Verif.Props.NanGrad
import Verif.Cases

/-! Properties C107 and C108: gradients (`jax.grad`) of dust attenuation, IMF and mass-metallicity functions. -/
namespace Dsps.Props
open Rev XF Dsps.Lemmas Dsps.Constants Spec Filter Topology

variable {ι : Type} [Fintype ι] {θ : ι → ℝ} {n m k w : ℕ}

/-! ## C107: dust -/

section dust
variable {x k' a' fl bl sl x0' γ' : Rv ι} {u κ av fl0 B δ x0 γ : (ι → ℝ) → ℝ}

/-- the transmission of a recorded curve -/
theorem traced_transmission {s : Prop} (hk : Traced s k' κ θ) (ha : Traced s a' av θ) (hf : Traced s fl fl0 θ) :
    Traced (s ∧ (av θ * κ θ ≠ 0 ∨ ∀ᶠ y in 𝓝 θ, 0 ≤ av y * κ y)) (Gen.frac_transmission_from_k_lambda k' a' fl)
      (fun θ => Dust.frac_transmission_from_k_lambda (κ θ) (av θ) (fl0 θ)) θ := by
  have h4 : (0:ℝ) < Dust.RV_C00 := by norm_num [Dust.RV_C00]
  have hA := traced_clip ((ha.mul hk).div (Traced.lit Dust.RV_C00) h4.ne')
  have hw : (s ∧ (av θ * κ θ ≠ 0 ∨ ∀ᶠ y in 𝓝 θ, 0 ≤ av y * κ y)) →
      s ∧ (av θ * κ θ / Dust.RV_C00 ≠ 0 ∨ ∀ᶠ y in 𝓝 θ, 0 ≤ av y * κ y / Dust.RV_C00) := fun h =>
    ⟨h.1, h.2.imp (fun h => div_ne_zero h h4.ne') fun h => h.mono fun y hy => div_nonneg hy h4.le⟩
  have hf' := hf.weaken (s' := s ∧ (av θ * κ θ ≠ 0 ∨ ∀ᶠ y in 𝓝 θ, 0 ≤ av y * κ y)) And.left
  exact hf'.add (((Traced.lit 1).sub hf').mul ((Traced.lit 0.4).neg.mul (hA.weaken hw)).exp10)

/-- C107: the gradients of the transmitted fraction with respect to curve, `av` and floor are finite for all finite inputs, and exact unless
`av * k` vanishes (where the clipping has its kink). -/
theorem C107_transmission_grad (hk : Traced True k' κ θ) (ha : Traced True a' av θ) (hf : Traced True fl fl0 θ) :
    Traced (av θ * κ θ ≠ 0) (Gen.frac_transmission_from_k_lambda k' a' fl)
      (fun θ => Dust.frac_transmission_from_k_lambda (κ θ) (av θ) (fl0 θ)) θ :=
  (traced_transmission hk ha hf).weaken fun h => ⟨trivial, Or.inl h⟩

/-- C107: at every point with `0 ≤ av * k`, `av = 0` included, the gradient is that of the unclipped attenuation law: the one-sided derivative at the kink. -/
theorem C107_transmission_one_sided (hk : Traced True k' κ θ) (ha : Traced True a' av θ) (hf : Traced True fl fl0 θ) (h0 : 0 ≤ av θ * κ θ) :
    Traced True (Gen.frac_transmission_from_k_lambda k' a' fl)
      (fun θ => fl0 θ + (1 - fl0 θ) * (10:ℝ) ^ (-0.4 * (av θ * κ θ / 4.05))) θ := by
  have h4 : (0:ℝ) < Dust.RV_C00 := by norm_num [Dust.RV_C00]
  have hA := traced_clip_nonneg ((ha.mul hk).div (Traced.lit Dust.RV_C00) h4.ne') (div_nonneg h0 h4.le)
  refine (hf.add (((Traced.lit 1).sub hf).mul ((Traced.lit 0.4).neg.mul hA).exp10)).congr ?_
  funext θ
  show _ + _ * (10:ℝ) ^ _ = _ + _ * (10:ℝ) ^ _
  norm_num [Dust.RV_C00]

theorem sbl18_eq_clip (w B δ x0 γ : ℝ) : Dust.sbl18_k_lambda w B δ x0 γ = if sbl18Raw w B δ x0 γ < 0 then 0 else sbl18Raw w B δ x0 γ := rfl
theorem noll09_eq_clip (w B δ x0 γ : ℝ) : Dust.noll09_k_lambda w B δ x0 γ = if noll09Raw w B δ x0 γ < 0 then 0 else noll09Raw w B δ x0 γ := rfl

/-- the clipped curve and `av` do not produce a kink -/
theorem no_kink {r : (ι → ℝ) → ℝ} (hr : ContinuousAt r θ) (ha : ContinuousAt av θ) (h0 : r θ ≠ 0) (h1 : av θ ≠ 0 ∨ Fixed av θ) :
    av θ * (if r θ < 0 then 0 else r θ) ≠ 0 ∨ ∀ᶠ y in 𝓝 θ, 0 ≤ av y * (if r y < 0 then 0 else r y) := by
  rcases lt_or_gt_of_ne h0 with h | h
  · right
    filter_upwards [hr.eventually_lt_const h] with y hy
    rw [if_pos hy, mul_zero]
  · by_cases hz : av θ = 0
    · right
      rcases h1 with h1 | h1
      · exact absurd hz h1
      · filter_upwards [h1] with y hy
        rw [hy, hz, zero_mul]
    · left
      rw [if_neg h.not_gt]
      exact mul_ne_zero hz h.ne'

variable (hx : Traced True x u θ) (ha : Traced True bl B θ) (hs : Traced True sl δ θ) (hb : Traced True x0' x0 θ) (hg : Traced True γ' γ θ)
    (hav : Traced True a' av θ) (hf : Traced True fl fl0 θ) (h0 : 0 < u θ) (h1 : γ θ ≠ 0)
include hx ha hs hb hg hav hf h0 h1

/-- C107: the fraction of light transmitted by the Salim+18 and Noll+09 laws: for positive wavelength and non-zero bump width the gradients with respect to wavelength,
bump amplitude, slope, bump position and width, `av` and floor are finite; they are exact unless the unclipped curve vanishes, `av` varies through
zero, or the wavelength varies through one of the breaks of the piecewise base curve (0.15 and 0.63 micron). -/
theorem C107_attenuation_grad :
    Traced (NoBreak u θ ∧ sbl18Raw (u θ) (B θ) (δ θ) (x0 θ) (γ θ) ≠ 0 ∧ (av θ ≠ 0 ∨ Fixed av θ))
      (Gen.frac_transmission_from_k_lambda (Gen.sbl18_k_lambda x bl sl x0' γ') a' fl)
      (fun θ => Dust.frac_transmission_from_k_lambda (Dust.sbl18_k_lambda (u θ) (B θ) (δ θ) (x0 θ) (γ θ)) (av θ) (fl0 θ)) θ ∧
    Traced (NoBreak u θ ∧ noll09Raw (u θ) (B θ) (δ θ) (x0 θ) (γ θ) ≠ 0 ∧ (av θ ≠ 0 ∨ Fixed av θ))
      (Gen.frac_transmission_from_k_lambda (Gen.noll09_k_lambda x bl sl x0' γ') a' fl)
      (fun θ => Dust.frac_transmission_from_k_lambda (Dust.noll09_k_lambda (u θ) (B θ) (δ θ) (x0 θ) (γ θ)) (av θ) (fl0 θ)) θ := by
  constructor
  · have hr := traced_sbl18_raw hx ha hs hb hg h0 h1
    have hk := (traced_clip hr).weaken (s' := NoBreak u θ ∧ sbl18Raw (u θ) (B θ) (δ θ) (x0 θ) (γ θ) ≠ 0)
      fun h => ⟨⟨trivial, h.1⟩, Or.inl h.2⟩
    exact (traced_transmission hk (hav.weaken fun _ => trivial) (hf.weaken fun _ => trivial)).weaken fun h =>
      ⟨⟨h.1, h.2.1⟩, no_kink (hr.continuousAt ⟨trivial, h.1⟩) (hav.continuousAt trivial) h.2.1 h.2.2⟩
  · have hr := traced_noll09_raw hx ha hs hb hg h0 h1
    have hk := (traced_clip hr).weaken (s' := NoBreak u θ ∧ noll09Raw (u θ) (B θ) (δ θ) (x0 θ) (γ θ) ≠ 0)
      fun h => ⟨⟨trivial, h.1⟩, Or.inl h.2⟩
    exact (traced_transmission hk (hav.weaken fun _ => trivial) (hf.weaken fun _ => trivial)).weaken fun h =>
      ⟨⟨h.1, h.2.1⟩, no_kink (hr.continuousAt ⟨trivial, h.1⟩) (hav.continuousAt trivial) h.2.1 h.2.2⟩

end dust

/-- C107: in particular `jax.grad` of the Salim+18 transmission with respect to `av`, bump amplitude and slope, at any wavelength, with the default bump: exact wherever
the unclipped curve does not vanish and `av ≠ 0`. -/
theorem C107_sbl18_jax_grad (wave av B δ : ℝ) (hw : 0 < wave) :
    GradOk (sbl18Raw wave B δ 0.2175 0.035 ≠ 0 ∧ av ≠ 0)
      (Gen.frac_transmission_from_k_lambda (Gen.sbl18_k_lambda (Flt.lit wave) (Rv.var (1 : Fin 3) (fin B)) (Rv.var 2 (fin δ)) (Flt.lit 0.2175)
        (Flt.lit 0.035)) (Rv.var 0 (fin av)) (Flt.lit 0))
      (fun θ => Dust.frac_transmission_from_k_lambda (Dust.sbl18_k_lambda wave (θ 1) (θ 2) 0.2175 0.035) (θ 0) 0) ![av, B, δ] :=
  ((C107_attenuation_grad (θ := ![av, B, δ]) (Traced.lit wave) (Traced.var 1) (Traced.var 2) (Traced.lit 0.2175) (Traced.lit 0.035) (Traced.var 0)
    (Traced.lit 0) hw (by norm_num)).1.weaken fun h => ⟨Or.inl (Fixed.const _), h.1, Or.inl h.2⟩).gradOk

/-- the hypotheses are met in the V band -/
example (δ : ℝ) : sbl18Raw 0.55 1 δ 0.2175 0.035 ≠ 0 ∧ (1:ℝ) ≠ 0 ∧ (0:ℝ) < 0.55 := by
  refine ⟨ne_of_gt ?_, one_ne_zero, by norm_num⟩
  unfold sbl18Raw Dust.l02_below_c00_above Dust.calzetti00_k_lambda Dust.power_law_vband_norm Dust.drude_bump Dust.RV_C00
  norm_num

/-- C107: the smooth triweight curve: finite and exact gradients with respect to the wavelength and all its parameters, for positive wavelength and non-zero
transition width. -/
theorem C107_triweight_grad {x a b c d e f : Rv ι} {u a0 b0 c0 d0 e0 f0 : (ι → ℝ) → ℝ} (hx : Traced True x u θ) (ha : Traced True a a0 θ)
    (hb : Traced True b b0 θ) (hc : Traced True c c0 θ) (hd : Traced True d d0 θ) (he : Traced True e e0 θ) (hf : Traced True f f0 θ)
    (hu : 0 < u θ) (hd0 : d0 θ ≠ 0) :
    Traced True (Gen.triweight_k_lambda x a b c d e f)
      (fun θ => Dust.triweight_k_lambda (u θ) (a0 θ) (b0 θ) (c0 θ) (d0 θ) (e0 θ) (f0 θ)) θ :=
  (traced_tw_sig_slope (hx.log10 hu) ha hb hc hd he hf hd0).exp10

/-- C107: the effective wavelength of a filter with non-zero integrated transmission, at every redshift other than -1. -/
theorem C107_effective_wavelength_grad {W T : Fin (n + 1) → Rv ι} {fw ft : (ι → ℝ) → Fin (n + 1) → ℝ} {z' : Rv ι} {z : (ι → ℝ) → ℝ}
    (hW : ∀ i, Traced True (W i) (fun θ => fw θ i) θ) (hT : ∀ i, Traced True (T i) (fun θ => ft θ i) θ) (hz : Traced True z' z θ)
    (hN : Utils.trapz (fw θ) (ft θ) ≠ 0) (hz0 : 1 + z θ ≠ 0) :
    Traced True (Gen.get_filter_effective_wavelength W T z') (fun θ => Dust.get_filter_effective_wavelength (fw θ) (ft θ) (z θ)) θ :=
  ((TV.trapz (F := fw) (G := fun θ i => ft θ i * fw θ i) hW fun i => (hT i).mul (hW i)).div (TV.trapz hW hT) hN).div ((Traced.lit 1).add hz) hz0

example : Utils.trapz (![1, 2] : Fin 2 → ℝ) ![1, 1] ≠ 0 := by
  rw [trapz_eq]; simp [Fin.sum_univ_succ]; norm_num

/-! ## C108: IMF and mass-metallicity relations -/

/-- C108: remnant and surviving mass fractions have finite and exact gradients with respect to age and all parameters, everywhere. -/
theorem C108_imf_grad {l a b k1 d e f k2 h : Rv ι} {l0 a0 b0 k0 d0 e0 f0 kk0 h0 : (ι → ℝ) → ℝ} (hl : Traced True l l0 θ) (ha : Traced True a a0 θ)
    (hb : Traced True b b0 θ) (hk : Traced True k1 k0 θ) (hd : Traced True d d0 θ) (he : Traced True e e0 θ) (hf : Traced True f f0 θ)
    (hk2 : Traced True k2 kk0 θ) (hh : Traced True h h0 θ) :
    Traced True (Gen.remnant_mass l a b k1 d e) (fun θ => RemnantMass.remnant_mass (l0 θ) ⟨a0 θ, b0 θ, k0 θ, d0 θ, e0 θ⟩) θ ∧
    Traced True (Gen.surviving_mstar l a b k1 d e f k2 h)
      (fun θ => SurvivingMstar.surviving_mstar (l0 θ) ⟨a0 θ, b0 θ, k0 θ, d0 θ, e0 θ, f0 θ, kk0 θ, h0 θ⟩) θ :=
  ⟨traced_remnant hl ha hb hk hd he, traced_surviving hl ha hb hk hd he hf hk2 hh⟩

/-- C108: the metallicity predicted from stellar mass and cosmic time: finite gradients with respect to mass, time and the nine parameters, exact unless the time varies
through 12.5 Gyr or the unclipped evolution term is exactly zero. -/
theorem C108_umzr_grad {x t' : Rv ι} {P : Fin 9 → Rv ι} {u t : (ι → ℝ) → ℝ} {p : (ι → ℝ) → Fin 9 → ℝ} (hx : Traced True x u θ)
    (ht : Traced True t' t θ) (hp : ∀ i, Traced True (P i) (fun θ => p θ i) θ) :
    Traced ((Fixed t θ ∨ t θ ≠ 12.5) ∧ umzrRaw (u θ) (t θ) (p θ 5) (p θ 6) (p θ 7) (p θ 8) ≠ 0) (Gen.umzr_model x t' P)
      (fun θ => Umzr.mzr_model (u θ) (t θ) (Umzr.MZRParams.ofArray (p θ))) θ :=
  (traced_umzr hx ht hp).weaken fun h => ⟨trivial, h⟩

/-- C108: the same for the older relation, which has an eleventh parameter `tlook_c ≠ 0`. -/
theorem C108_mzr_grad {x t' : Rv ι} {q : Fin 10 → Rv ι} {u t : (ι → ℝ) → ℝ} {p : Fin 10 → (ι → ℝ) → ℝ} (hx : Traced True x u θ)
    (ht : Traced True t' t θ) (hp : ∀ i, Traced True (q i) (p i) θ) (htc : p 7 θ ≠ 0) :
    Traced ((Fixed t θ ∨ t θ ≠ 12.5) ∧ mzrRaw (u θ) (t θ) (p 5 θ) (p 6 θ) (p 7 θ) (p 8 θ) (p 9 θ) ≠ 0)
      (Gen.mzr_model x t' (q 0) (q 1) (q 2) (q 3) (q 4) (q 5) (q 6) (q 7) (q 8) (q 9))
      (fun θ => Mzr.mzr_model (u θ) (t θ) (p 0 θ) (p 1 θ) (p 2 θ) (p 3 θ) (p 4 θ) (p 5 θ) (p 6 θ) (p 7 θ) (p 8 θ) (p 9 θ)) θ :=
  (traced_mzr hx ht hp htc).weaken fun h => ⟨trivial, h⟩

/-- C108: the bounded metallicity parameters are differentiable functions of the unbounded ones: finite and exact gradients for all real values. -/
theorem C108_bounded_params_grad {P : Fin 9 → Rv ι} {p : (ι → ℝ) → Fin 9 → ℝ} (hp : ∀ i, Traced True (P i) (fun θ => p θ i) θ) (i : Fin 9) :
    Traced True (Gen.get_bounded_mzr_params P i) (fun θ => (Umzr.get_bounded_mzr_params (Umzr.MZRUParams.ofArray (p θ))).toArray i) θ :=
  TV.bounded_mzr hp i

/-- C108: `jax.grad` of the metallicity with respect to the nine unbounded parameters, at fixed mass and time: finite for all real parameter values, and exact
unless the unclipped evolution term is exactly zero. -/
theorem C108_umzr_u_jax_grad (logsm t : ℝ) (u : Fin 9 → ℝ) :
    GradOk (umzrRaw logsm t (Umzr.get_bounded_mzr_params (Umzr.MZRUParams.ofArray u)).c0_y_at_tlook_c
        (Umzr.get_bounded_mzr_params (Umzr.MZRUParams.ofArray u)).c1_y_at_tlook_c
        (Umzr.get_bounded_mzr_params (Umzr.MZRUParams.ofArray u)).c0_early_time_slope
        (Umzr.get_bounded_mzr_params (Umzr.MZRUParams.ofArray u)).c1_early_time_slope ≠ 0)
      (Gen.umzr_model (Flt.lit logsm) (Flt.lit t) (Gen.get_bounded_mzr_params fun i => Rv.var i (fin (u i))))
      (fun u => Umzr.mzr_model logsm t (Umzr.get_bounded_mzr_params (Umzr.MZRUParams.ofArray u))) u :=
  ((C108_umzr_grad (θ := u) (Traced.lit logsm) (Traced.lit t) (C108_bounded_params_grad (p := fun u => u) fun i => Traced.var i)).weaken
    fun h => ⟨Or.inl (Fixed.const _), h⟩).gradOk

/-- the hypotheses are met: mass `10^10`, 8.44 Gyr ago, and parameters with `c0 + c1 * 10 = -0.155` -/
example : umzrRaw 10 (12.5 - 8.44) (-1.455) 0.13 (-0.959) 0.067242 ≠ 0 := by
  unfold umzrRaw mzrLookback Umzr.delta_logz_vs_t_lookback Utils.sig_slope Umzr.TLOOK_C Umzr.MZR_DT_XTP
  norm_num

end Dsps.Props

namespace Dsps.Props
open Rev XF Dsps.Lemmas Dsps.Constants Spec

/-- C107 applied -/
example := C107_transmission_grad (θ := ![4.05, 1]) (κ := fun θ => θ 0) (av := fun θ => θ 1) (fl0 := fun _ => 0) (Traced.var 0) (Traced.var 1)
  (Traced.lit 0)
example := C107_transmission_one_sided (θ := ![4.05, 0]) (κ := fun θ => θ 0) (av := fun θ => θ 1) (fl0 := fun _ => 0) (Traced.var 0)
  (Traced.var 1) (Traced.lit 0) (by norm_num)
example := C107_attenuation_grad (θ := ![0.55, 1, 0.3, 0.2175, 0.035, 1]) (u := fun θ => θ 0) (B := fun θ => θ 1) (δ := fun θ => θ 2)
  (x0 := fun θ => θ 3) (γ := fun θ => θ 4) (av := fun θ => θ 5) (fl0 := fun _ => 0) (Traced.var 0) (Traced.var 1) (Traced.var 2) (Traced.var 3)
  (Traced.var 4) (Traced.var 5) (Traced.lit 0) (by norm_num) (by simp; norm_num)
example := C107_sbl18_jax_grad 0.55 1 1 0.3 (by norm_num)
example := C107_triweight_grad (θ := ![0.55, 3]) (u := fun θ => θ 0) (a0 := fun _ => 0.1) (b0 := fun _ => 0) (c0 := fun _ => 2) (d0 := fun θ => θ 1)
  (e0 := fun _ => -1) (f0 := fun _ => -2) (Traced.var 0) (Traced.lit _) (Traced.lit _) (Traced.lit _) (Traced.var 1) (Traced.lit _)
  (Traced.lit _) (by norm_num) (by norm_num)
example := C107_effective_wavelength_grad (n := 1) (θ := ![1, 2, 0.5]) (fw := fun θ => ![θ 0, θ 1]) (ft := fun _ => ![1, 1]) (z := fun θ => θ 2)
  (W := ![Rv.var 0 (fin 1), Rv.var 1 (fin 2)]) (T := fun i => Flt.lit (![1, 1] i))
  (by intro i; fin_cases i; exacts [Traced.var (θ := ![1, 2, 0.5]) 0, Traced.var (θ := ![1, 2, 0.5]) 1]) (fun _ => Traced.lit _)
  (Traced.var (θ := ![1, 2, 0.5]) 2) (by rw [trapz_eq]; simp; norm_num) (by simp; norm_num)
/-- C108 applied: all parameters are variables -/
example (θ : Fin 9 → ℝ) := C108_imf_grad (θ := θ) (l0 := fun θ => θ 0) (a0 := fun θ => θ 1) (b0 := fun θ => θ 2) (k0 := fun θ => θ 3)
  (d0 := fun θ => θ 4) (e0 := fun θ => θ 5) (f0 := fun θ => θ 6) (kk0 := fun θ => θ 7) (h0 := fun θ => θ 8) (Traced.var 0) (Traced.var 1)
  (Traced.var 2) (Traced.var 3) (Traced.var 4) (Traced.var 5) (Traced.var 6) (Traced.var 7) (Traced.var 8)
example (θ : Fin 9 → ℝ) := C108_umzr_grad (θ := θ) (u := fun _ => 10) (t := fun _ => 13) (p := fun θ => θ) (Traced.lit 10) (Traced.lit 13)
  (fun i => Traced.var i)
example := C108_mzr_grad (θ := fun i : Fin 10 => (i : ℝ) + 1) (u := fun _ => 10) (t := fun _ => 13) (p := fun i θ => θ i) (Traced.lit 10)
  (Traced.lit 13) (fun i => Traced.var i) (by norm_num)
example (θ : Fin 9 → ℝ) := C108_bounded_params_grad (θ := θ) (p := fun θ => θ) (fun i => Traced.var i)

end Dsps.Props
