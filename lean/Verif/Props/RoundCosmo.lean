import Verif.Lemmas.RoundCosmoQuad
import Verif.Lemmas.Round
import Verif.Lemmas.RoundSed
import Verif.Props.Rounding
import Verif.Props.Cosmology

/-! C117: floating-point accuracy of the cosmology functions.  The programs are those of `Verif/Model/RoundedCosmo.lean`; the exact functions
they are compared with are the real-number models of `Verif/Model/FlatWcdm.lean`.  Errors are counted in roundings: a cost `K` means a relative
error of at most `1.02 K ε`, where `ε` bounds the unit roundoff and the error of the library functions. -/
namespace Dsps.Props
open Jnp Fl Spec Dsps.Lemmas

/-- **The machine**: unit roundoff of Python's floats and of JAX's dtype, and relative error of `exp`, `pow`, `log10`, all at most `ε ≤ 1e-6`. -/
structure Machine (P A : Arith) (v ε : ℝ) : Prop where
  python : P.u ≤ ε
  jax : A.u ≤ ε
  lib_nonneg : 0 ≤ v
  lib : v ≤ ε
  small : ε ≤ 1e-6

/-- cost of the expansion rate `E(z)`, if `1+z` is known up to `κ` roundings -/
noncomputable def EzCost (κ z w0 wa : ℝ) : ℝ := (1 + |w0| + |wa|) * (3.05 * κ + 11.5 + 4.55 * Real.log (1 + z)) + 2.5

/-- cost of the comoving distance; `d` is the longest chain of additions in the quadrature -/
noncomputable def distCost (d : ℕ) (z w0 wa : ℝ) : ℝ := EzCost 3 z w0 wa + gridCost 254 w0 wa + d + 12

/-- cost of the lookback time -/
noncomputable def lookCost (d : ℕ) (z w0 wa : ℝ) : ℝ := EzCost 3 z w0 wa + EzCost 0 0 w0 wa + gridCost 510 w0 wa + d + 19

/-- cost of the age today -/
noncomputable def ageCost (d : ℕ) (w0 wa : ℝ) : ℝ := EzCost 23 999 w0 wa + EzCost 0 0 w0 wa + ageGridCost w0 wa + d + 39

variable {P A : Arith} {v ε : ℝ} {Om0 w0 wa h z : ℝ} {d : ℕ}

lemma EzCost_eq (κ z w0 wa : ℝ) : EzCost κ z w0 wa = KE κ (Real.log (1 + z)) w0 wa := by
  unfold EzCost KE Kde deSize; norm_num; ring

lemma EzCost_nonneg {κ z : ℝ} (hκ : 0 ≤ κ) (hz : 0 ≤ z) (w0 wa : ℝ) : 0 ≤ EzCost κ z w0 wa := by
  rw [EzCost_eq]; exact KE_nonneg hκ (Real.log_nonneg (by linarith)) w0 wa

lemma gridCost_nonneg (n : ℕ) (w0 wa : ℝ) : 3 ≤ gridCost n w0 wa := by
  unfold gridCost; split_ifs
  · exact le_rfl
  · have : (0:ℝ) ≤ n := Nat.cast_nonneg n
    norm_num; linarith

lemma ageGridCost_nonneg (w0 wa : ℝ) : 0 ≤ ageGridCost w0 wa := by unfold ageGridCost; split_ifs <;> norm_num

namespace Machine
lemma eps_nonneg (M : Machine P A v ε) : 0 ≤ ε := A.u_nonneg.trans M.jax
lemma small' (M : Machine P A v ε) : ε ≤ 1 / 2000 := M.small.trans (by norm_num)
lemma tolA (M : Machine P A v ε) : Tol (1.001 * ε) A.u := Tol.of_small A.u_nonneg M.jax M.small'
lemma tolP (M : Machine P A v ε) : Tol (1.001 * ε) P.u := Tol.of_small P.u_nonneg M.python M.small'
lemma tolv (M : Machine P A v ε) : Tol (1.001 * ε) v := Tol.of_small M.lib_nonneg M.lib M.small'
lemma eta_le (M : Machine P A v ε) : 1.001 * ε ≤ 1.001e-6 := by have := M.small; norm_num at this ⊢; linarith

/-- reading a cost as a relative error -/
lemma rel (M : Machine P A v ε) {K x' x : ℝ} (h : Close (K * (1.001 * ε)) x' x) (hK0 : 0 ≤ K) (hK : K * ε ≤ 0.0099) :
    |x' - x| ≤ 1.02 * K * ε * x := by
  have h0 := M.eps_nonneg
  have hKe : 0 ≤ K * ε := mul_nonneg hK0 h0
  have := h.rel (by positivity) (by norm_num at hK ⊢; linarith)
  refine this.trans (mul_le_mul_of_nonneg_right ?_ h.1)
  norm_num; linarith

end Machine

/-- a machine number `z` is known exactly -/
lemma exact_close (hz : 0 ≤ z) (η : ℝ) : Close (0 * η) (1 + z) (1 + z) := by
  rw [zero_mul]; exact Close.refl (by linarith)

lemma Ez_close (M : Machine P A v ε) (hO : PhysicalOm Om0) (hz : 0 ≤ z) {r : ℝ} (hr : r ∈ Rounded.Ez A v z Om0 w0 wa) :
    Close (EzCost 0 z w0 wa * (1.001 * ε)) r (FlatWcdm.Ez z Om0 w0 wa) := by
  have h1 := M.eta_le
  rw [EzCost_eq]
  exact close_Ez (by norm_num at h1 ⊢; linarith) M.tolA M.tolv hO le_rfl (by norm_num at h1 ⊢; linarith) hz (exact_close hz _) le_rfl hr

/-- C117: the expansion rate. -/
theorem C117_expansion_rate (M : Machine P A v ε) (hO : PhysicalOm Om0) (hz : 0 ≤ z) (hK : EzCost 0 z w0 wa * ε ≤ 0.0099) {r : ℝ}
    (hr : r ∈ Rounded.Ez A v z Om0 w0 wa) :
    |r - FlatWcdm.Ez z Om0 w0 wa| ≤ 1.02 * EzCost 0 z w0 wa * ε * FlatWcdm.Ez z Om0 w0 wa :=
  M.rel (Ez_close M hO hz hr) (EzCost_nonneg le_rfl hz w0 wa) hK

lemma conv_close (M : Machine P A v ε) {k x r : ℝ} {S : Set ℝ} (hS : ∀ p ∈ S, Close (k * (1.001 * ε)) p x) (hr : r ∈ Rounded.conv A S) :
    Close ((k + 1) * (1.001 * ε)) r x := by
  obtain ⟨p, hp, hr⟩ := hr
  exact ((hS p hp).rnd M.tolA hr).mono (by linarith)

lemma pyrnd_close (M : Machine P A v ε) {x r : ℝ} (hx : 0 ≤ x) (hr : r ∈ P.rnd x) : Close (1 * (1.001 * ε)) r x :=
  ((Close.refl hx).rnd M.tolP hr).mono (by linarith)

lemma lit_close (M : Machine P A v ε) {x r : ℝ} (hx : 0 ≤ x) (hr : r ∈ Rounded.lit P A x) : Close (2 * (1.001 * ε)) r x :=
  (conv_close M (fun _ hp => pyrnd_close M hx hp) hr).mono (by linarith)

lemma table_small (M : Machine P A v ε) {n : ℕ} (hn : n ≤ 510) : (2 * n + 1 : ℝ) * (3.1 * (1.001 * ε)) ≤ 1 / 100 := by
  have h1 := M.eta_le
  have h2 : (n:ℝ) ≤ 510 := by exact_mod_cast hn
  have h0 := M.eps_nonneg
  calc (2 * n + 1 : ℝ) * (3.1 * (1.001 * ε)) ≤ (2 * 510 + 1) * (3.1 * 1.001e-6) := by gcongr
    _ ≤ _ := by norm_num

lemma comoving_close (M : Machine P A v ε) (hO : PhysicalOm Om0) (hz : 0 ≤ z) (hh : 0 < h) {r : ℝ}
    (hr : r ∈ Rounded.comoving_distance_to_z P A v d z Om0 w0 wa h) :
    Close (distCost d z w0 wa * (1.001 * ε)) r (FlatWcdm.comoving_distance_to_z z Om0 w0 wa h) := by
  obtain ⟨x, hx, y, hy, T, hT, c, hc, p, hp, k, hk, q, hq, hr⟩ := hr
  have h1 := M.eta_le
  have wy : ∀ i, Close ((KE 3 (Real.log (1 + z)) w0 wa + 1) * (1.001 * ε)) (y i)
      ((fun s => 1 / FlatWcdm.Ez s Om0 w0 wa) (linspace 0 z 254 i)) := fun i =>
    close_integrand (by norm_num at h1 ⊢; linarith) M.tolA M.tolv hO (by norm_num) (by norm_num at h1 ⊢; linarith) (linspace_nonneg hz _ i)
      (one_add_close M.tolA hz hx i) (log_one_add_le hz _ i) (hy i)
  have wT := close_quad (d := d) (w0 := w0) (wa := wa) M.tolA hz (table_small M (by norm_num)) hx (f := fun s => 1 / FlatWcdm.Ez s Om0 w0 wa)
    (fun s hs => (one_div_pos.2 (Ez_pos (by linarith) hO w0 wa)).le)
    (fun hw s s' hs hss => one_div_le_one_div_of_le (Ez_pos (by linarith) hO w0 wa) (Ez_mono hO hw hs hss)) wy hT
  have wp := (wT.mul (lit_close M (by unfold FlatWcdm.C_SPEED; norm_num) hc)).rnd M.tolA hp
  have wq := (wp.mul (lit_close M (by norm_num) hk)).rnd M.tolA hq
  have wr := (wq.div (Close.refl hh.le)).rnd M.tolA hr
  refine Close.mono (δ := _) wr (le_of_eq ?_)
  unfold distCost
  rw [EzCost_eq]; ring

lemma distCost_nonneg (d : ℕ) (hz : 0 ≤ z) (w0 wa : ℝ) : 0 ≤ distCost d z w0 wa := by
  have h1 := EzCost_nonneg (κ := 3) (by norm_num) hz w0 wa
  have h2 := gridCost_nonneg 254 w0 wa
  have : (0:ℝ) ≤ d := Nat.cast_nonneg d
  unfold distCost; linarith

/-- C117: comoving, luminosity and angular diameter distance: relative error at most `1.02 K ε`, for any order of the additions in the quadrature,
any redshift `z ≥ 0`, any matter density in `[0,1]`, any dark-energy equation of state. -/
theorem C117_distances (M : Machine P A v ε) (hO : PhysicalOm Om0) (hz : 0 ≤ z) (hh : 0 < h) (hK : (distCost d z w0 wa + 2) * ε ≤ 0.0099) :
    (∀ r ∈ Rounded.comoving_distance_to_z P A v d z Om0 w0 wa h,
      |r - FlatWcdm.comoving_distance_to_z z Om0 w0 wa h| ≤ 1.02 * distCost d z w0 wa * ε * FlatWcdm.comoving_distance_to_z z Om0 w0 wa h) ∧
    (∀ r ∈ Rounded.luminosity_distance_to_z P A v d z Om0 w0 wa h,
      |r - FlatWcdm.luminosity_distance_to_z z Om0 w0 wa h|
        ≤ 1.02 * (distCost d z w0 wa + 2) * ε * FlatWcdm.luminosity_distance_to_z z Om0 w0 wa h) ∧
    (∀ r ∈ Rounded.angular_diameter_distance_to_z P A v d z Om0 w0 wa h,
      |r - FlatWcdm.angular_diameter_distance_to_z z Om0 w0 wa h|
        ≤ 1.02 * (distCost d z w0 wa + 2) * ε * FlatWcdm.angular_diameter_distance_to_z z Om0 w0 wa h) := by
  have h0 := distCost_nonneg d hz w0 wa
  have hε := M.eps_nonneg
  refine ⟨fun r hr => M.rel (comoving_close M hO hz hh hr) h0 (by linarith), ?_, ?_⟩
  · rintro r ⟨D, hD, s, hs, hr⟩
    refine M.rel (K := distCost d z w0 wa + 2) ?_ (by linarith) hK
    have ws := (Close.refl (show 0 ≤ 1 + z by linarith)).rnd M.tolA hs
    exact (((comoving_close M hO hz hh hD).mul ws).rnd M.tolA hr).mono (by linarith)
  · rintro r ⟨D, hD, s, hs, hr⟩
    refine M.rel (K := distCost d z w0 wa + 2) ?_ (by linarith) hK
    have ws := (Close.refl (show 0 ≤ 1 + z by linarith)).rnd M.tolA hs
    exact (((comoving_close M hO hz hh hD).div ws).rnd M.tolA hr).mono (by linarith)

lemma lum_close (M : Machine P A v ε) (hO : PhysicalOm Om0) (hz : 0 ≤ z) (hh : 0 < h) {r : ℝ}
    (hr : r ∈ Rounded.luminosity_distance_to_z P A v d z Om0 w0 wa h) :
    Close ((distCost d z w0 wa + 2) * (1.001 * ε)) r (FlatWcdm.luminosity_distance_to_z z Om0 w0 wa h) := by
  obtain ⟨D, hD, s, hs, hr⟩ := hr
  have ws := (Close.refl (show 0 ≤ 1 + z by linarith)).rnd M.tolA hs
  exact (((comoving_close M hO hz hh hD).mul ws).rnd M.tolA hr).mono (by linarith)

lemma ang_close (M : Machine P A v ε) (hO : PhysicalOm Om0) (hz : 0 ≤ z) (hh : 0 < h) {r : ℝ}
    (hr : r ∈ Rounded.angular_diameter_distance_to_z P A v d z Om0 w0 wa h) :
    Close ((distCost d z w0 wa + 2) * (1.001 * ε)) r (FlatWcdm.angular_diameter_distance_to_z z Om0 w0 wa h) := by
  obtain ⟨D, hD, s, hs, hr⟩ := hr
  have ws := (Close.refl (show 0 ≤ 1 + z by linarith)).rnd M.tolA hs
  exact (((comoving_close M hO hz hh hD).div ws).rnd M.tolA hr).mono (by linarith)

lemma lum_pos (hO : PhysicalOm Om0) (hz : 0 < z) (hh : 0 < h) : 0 < FlatWcdm.luminosity_distance_to_z z Om0 w0 wa h := by
  unfold FlatWcdm.luminosity_distance_to_z
  rw [comoving_eq]
  have := Dtrap_pos hz hO w0 wa
  have := CK_pos hh
  positivity

/-- `jnp.log10` of a number known up to `K` roundings, times a constant `c` -/
lemma log_err (M : Machine P A v ε) {K c x x' l r : ℝ} (hK0 : 0 ≤ K) (hK : K * ε ≤ 0.0099) (hx : 0 < x) (hxx : Close (K * (1.001 * ε)) x' x)
    (hl : l ∈ Rounded.log10 v x') (hr : r ∈ A.mul c l) :
    |r - c * Jnp.log10 x| ≤ |c| * (0.436 * K * ε + 2.03 * ε * max 1 |Jnp.log10 x|) := by
  have hc := abs_nonneg c
  have hε := M.eps_nonneg
  have h6 := M.small
  have hKe : 0 ≤ K * ε := mul_nonneg hK0 hε
  have hlog : |Jnp.log10 x' - Jnp.log10 x| ≤ 0.4353 * K * ε := by
    have h1 := hxx.abs_log hx
    unfold Jnp.log10 Real.logb
    rw [← sub_div, abs_div, abs_of_pos (Real.log_pos (by norm_num : (1:ℝ) < 10)), div_le_iff₀ (Real.log_pos (by norm_num))]
    have := mul_le_mul_of_nonneg_left log10_bounds.1 (show 0 ≤ 0.4353 * K * ε by linarith)
    norm_num at this h1 ⊢; linarith
  set m := max 1 |Jnp.log10 x| with hm
  have hm1 : 1 ≤ m := le_max_left _ _
  have hm2 : |Jnp.log10 x| ≤ m := le_max_right _ _
  have e1 : 0.4353 * K * ε ≤ 0.0044 := by norm_num at hK ⊢; linarith
  have hx'm : |Jnp.log10 x'| ≤ 1.005 * m := by
    have := abs_add_le (Jnp.log10 x' - Jnp.log10 x) (Jnp.log10 x)
    rw [sub_add_cancel] at this
    norm_num at e1 ⊢; linarith
  have hl' : |l - Jnp.log10 x'| ≤ 1.005 * ε * m := by
    have h1 : |l - Jnp.log10 x'| ≤ v * max 1 |Jnp.log10 x'| := hl
    have h2 : max 1 |Jnp.log10 x'| ≤ 1.005 * m := max_le (by norm_num; linarith) hx'm
    calc _ ≤ v * max 1 |Jnp.log10 x'| := h1
      _ ≤ ε * (1.005 * m) := mul_le_mul M.lib h2 (by positivity) hε
      _ = _ := by ring
  have hlm : |l| ≤ 1.006 * m := by
    have := abs_add_le (l - Jnp.log10 x') (Jnp.log10 x')
    rw [sub_add_cancel] at this
    have h3 : 1.005 * ε * m ≤ 0.001 * m := by
      apply mul_le_mul_of_nonneg_right _ (by linarith)
      norm_num at h6 ⊢; linarith
    norm_num at h3 hl' hx'm this ⊢; linarith
  have hr' : |r - c * l| ≤ |c| * (1.006 * ε * m) := by
    refine (A.rel _ _ hr).trans ?_
    rw [abs_mul]
    have := mul_le_mul M.jax hlm (abs_nonneg _) hε
    have := mul_le_mul_of_nonneg_left this hc
    linarith
  have e : r - c * Jnp.log10 x = (r - c * l) + c * (l - Jnp.log10 x') + c * (Jnp.log10 x' - Jnp.log10 x) := by ring
  rw [e]
  refine (abs_add_three _ _ _).trans ?_
  rw [abs_mul, abs_mul]
  have k1 := mul_le_mul_of_nonneg_left hl' hc
  have k2 := mul_le_mul_of_nonneg_left hlog hc
  have n1 : 0 ≤ |c| * (ε * m) := by positivity
  have n2 : 0 ≤ |c| * (K * ε) := by positivity
  norm_num at k1 k2 hr' ⊢
  nlinarith

/-- C117: the distance modulus (absolute error, in magnitudes). -/
theorem C117_distance_modulus (M : Machine P A v ε) (hO : PhysicalOm Om0) (hz : 0 < z) (hh : 0 < h) (hK : (distCost d z w0 wa + 3) * ε ≤ 0.0099)
    {r : ℝ} (hr : r ∈ Rounded.distance_modulus_to_z P A v d z Om0 w0 wa h) :
    |r - FlatWcdm.distance_modulus_to_z z Om0 w0 wa h|
      ≤ 2.18 * (distCost d z w0 wa + 3) * ε + 2.03 * ε * max 5 |FlatWcdm.distance_modulus_to_z z Om0 w0 wa h| := by
  obtain ⟨D, hD, x, hx, l, hl, hr⟩ := hr
  have h0 := distCost_nonneg d hz.le w0 wa
  have hp := lum_pos (w0 := w0) (wa := wa) hO hz hh
  have wx : Close ((distCost d z w0 wa + 3) * (1.001 * ε)) x (FlatWcdm.luminosity_distance_to_z z Om0 w0 wa h * 1e5) :=
    (((lum_close M hO hz.le hh hD).mul (Close.refl (by norm_num))).rnd M.tolA hx).mono (by linarith)
  have key := log_err M (c := 5.0) (by linarith) hK (by positivity) wx hl hr
  have e : FlatWcdm.distance_modulus_to_z z Om0 w0 wa h = 5.0 * Jnp.log10 (FlatWcdm.luminosity_distance_to_z z Om0 w0 wa h * 1e5) := rfl
  rw [e]
  refine key.trans (le_of_eq ?_)
  have e2 : max 5 |5.0 * Jnp.log10 (FlatWcdm.luminosity_distance_to_z z Om0 w0 wa h * 1e5)|
      = 5.0 * max 1 |Jnp.log10 (FlatWcdm.luminosity_distance_to_z z Om0 w0 wa h * 1e5)| := by
    rw [abs_mul, mul_max_of_nonneg _ _ (by norm_num)]; norm_num
  rw [e2, abs_of_pos (by norm_num : (0:ℝ) < 5.0)]; norm_num; ring

/-! ### times -/

lemma hubble_time_close (M : Machine P A v ε) (hO : PhysicalOm Om0) (hz : 0 ≤ z) (hh : 0 < h) {r : ℝ}
    (hr : r ∈ Rounded.hubble_time P A v z Om0 w0 wa h) :
    Close ((EzCost 0 z w0 wa + 8) * (1.001 * ε)) r (FlatWcdm.hubble_time z Om0 w0 wa h) := by
  obtain ⟨E, hE, a, ha, b, hb, c, hc, y, hy, k, hk, x, hx, hr⟩ := hr
  have wc := ((pyrnd_close M (by norm_num) ha).mul (pyrnd_close M (by unfold FlatWcdm.MPC; norm_num) hb)).rnd M.tolP hc
  have wy := pyrnd_close M (by unfold FlatWcdm.YEAR; norm_num) hy
  have wk := conv_close M (k := 5) (fun p hp => ((wc.div wy).rnd M.tolP hp).mono (by linarith)) hk
  have wx := (wk.div (Close.refl hh.le)).rnd M.tolA hx
  exact ((wx.div (Ez_close M hO hz hE)).rnd M.tolA hr).mono (by linarith)

lemma hubble_time0_close (M : Machine P A v ε) (hO : PhysicalOm Om0) (hh : 0 < h) {r : ℝ}
    (hr : r ∈ Rounded.hubble_time P A v 0.0 Om0 w0 wa h) : Close ((EzCost 0 0 w0 wa + 8) * (1.001 * ε)) r (FlatWcdm.hubble_time 0.0 Om0 w0 wa h) := by
  have e : (0.0:ℝ) = 0 := by norm_num
  rw [e] at hr ⊢
  exact hubble_time_close M hO le_rfl hh hr

lemma lookback_close (M : Machine P A v ε) (hO : PhysicalOm Om0) (hz : 0 ≤ z) (hh : 0 < h) {r : ℝ}
    (hr : r ∈ Rounded.lookback_to_z P A v d z Om0 w0 wa h) :
    Close (lookCost d z w0 wa * (1.001 * ε)) r (FlatWcdm.lookback_to_z z Om0 w0 wa h) := by
  obtain ⟨x, hx, y, hy, T, hT, th, hth, hr⟩ := hr
  have h1 := M.eta_le
  have wy : ∀ i, Close ((KE 3 (Real.log (1 + z)) w0 wa + 3 + 3) * (1.001 * ε)) (y i) (ft Om0 w0 wa (linspace 0 z 510 i)) := fun i =>
    close_integrand_time (by norm_num at h1 ⊢; linarith) M.tolA M.tolv hO (by norm_num) (by norm_num at h1 ⊢; linarith) (linspace_nonneg hz _ i)
      (one_add_close M.tolA hz hx i) (log_one_add_le hz _ i) (hy i)
  have wT := close_quad (d := d) (w0 := w0) (wa := wa) M.tolA hz (table_small M (by norm_num)) hx (f := ft Om0 w0 wa)
    (fun s hs => ft_nonneg hO w0 wa hs) (fun hw s s' hs hss => ft_anti hO hw s s' hs hss) wy hT
  have wr := ((hubble_time0_close M hO hh hth).mul wT).rnd M.tolA hr
  refine Close.mono (δ := _) wr (le_of_eq ?_)
  unfold lookCost
  rw [EzCost_eq 3]; ring

lemma agrid_log (i : Fin 512) : Real.log (1 + agrid i) ≤ Real.log (1 + 999) := by
  have h0 := agrid_nonneg i
  have := agrid_mono.monotone (Fin.le_last i)
  rw [agrid_last] at this
  exact Real.log_le_log (by linarith) (by linarith)

lemma age0_close (M : Machine P A v ε) (hO : PhysicalOm Om0) (hh : 0 < h) {r : ℝ} (hr : r ∈ Rounded.age_at_z0 P A v d Om0 w0 wa h) :
    Close (ageCost d w0 wa * (1.001 * ε)) r (FlatWcdm.age_at_z0 Om0 w0 wa h) := by
  obtain ⟨lg, hlg, y, hy, x, hx, f, hf, T, hT, th, hth, hr⟩ := hr
  have h1 := M.eta_le
  have wf : ∀ i, Close ((KE 23 (Real.log (1 + 999)) w0 wa + 23 + 3) * (1.001 * ε)) (f i) (ft Om0 w0 wa (agrid i)) := fun i =>
    close_integrand_time (by norm_num at h1 ⊢; linarith) M.tolA M.tolv hO (by norm_num) (by norm_num at h1 ⊢; linarith) (agrid_nonneg i)
      (close_agrid (by norm_num at h1 ⊢; linarith) M.tolA M.tolv hlg hy hx i) (agrid_log i) (hf i)
  have wT := close_age_quad (d := d) (by norm_num at h1 ⊢; linarith) M.tolA M.tolv hlg hy hx hO wf hT
  have wr := ((hubble_time0_close M hO hh hth).mul wT).rnd M.tolA hr
  rw [age0_eq, ← hubble_time_zero Om0 w0 wa h]
  refine Close.mono (δ := _) wr (le_of_eq ?_)
  unfold ageCost
  rw [EzCost_eq 23]; ring

lemma lookCost_nonneg (d : ℕ) (hz : 0 ≤ z) (w0 wa : ℝ) : 0 ≤ lookCost d z w0 wa := by
  have h1 := EzCost_nonneg (κ := 3) (by norm_num) hz w0 wa
  have h3 := EzCost_nonneg (κ := 0) (by norm_num) le_rfl w0 wa
  have h2 := gridCost_nonneg 510 w0 wa
  have : (0:ℝ) ≤ d := Nat.cast_nonneg d
  unfold lookCost; linarith

lemma ageCost_nonneg (d : ℕ) (w0 wa : ℝ) : 0 ≤ ageCost d w0 wa := by
  have h1 := EzCost_nonneg (κ := 23) (z := 999) (by norm_num) (by norm_num) w0 wa
  have h3 := EzCost_nonneg (κ := 0) (by norm_num) le_rfl w0 wa
  have h2 := ageGridCost_nonneg w0 wa
  have : (0:ℝ) ≤ d := Nat.cast_nonneg d
  unfold ageCost; linarith

/-- C117: lookback time and age today, relative error. -/
theorem C117_times (M : Machine P A v ε) (hO : PhysicalOm Om0) (hz : 0 ≤ z) (hh : 0 < h) (hK : lookCost d z w0 wa * ε ≤ 0.0099)
    (hK' : ageCost d w0 wa * ε ≤ 0.0099) :
    (∀ r ∈ Rounded.lookback_to_z P A v d z Om0 w0 wa h,
      |r - FlatWcdm.lookback_to_z z Om0 w0 wa h| ≤ 1.02 * lookCost d z w0 wa * ε * FlatWcdm.lookback_to_z z Om0 w0 wa h) ∧
    (∀ r ∈ Rounded.age_at_z0 P A v d Om0 w0 wa h,
      |r - FlatWcdm.age_at_z0 Om0 w0 wa h| ≤ 1.02 * ageCost d w0 wa * ε * FlatWcdm.age_at_z0 Om0 w0 wa h) :=
  ⟨fun _ hr => M.rel (lookback_close M hO hz hh hr) (lookCost_nonneg d hz w0 wa) hK,
    fun _ hr => M.rel (age0_close M hO hh hr) (ageCost_nonneg d w0 wa) hK'⟩

/-- C117: the age at redshift `z`.  It is computed as a difference, so its error is measured by the age today and the lookback time, not by the age
at `z` itself: at high redshift all digits may be lost. -/
theorem C117_age_at_z (M : Machine P A v ε) (hO : PhysicalOm Om0) (hz : 0 ≤ z) (hh : 0 < h) (hK : lookCost d z w0 wa * ε ≤ 0.0099)
    (hK' : ageCost d w0 wa * ε ≤ 0.0099) {r : ℝ} (hr : r ∈ Rounded.age_at_z_kern P A v d z Om0 w0 wa h) :
    |r - FlatWcdm.age_at_z (fun _ : Fin 1 => z) Om0 w0 wa h 0|
      ≤ (1.03 * ageCost d w0 wa + 1.02) * ε * FlatWcdm.age_at_z0 Om0 w0 wa h
        + (1.03 * lookCost d z w0 wa + 1.02) * ε * FlatWcdm.lookback_to_z z Om0 w0 wa h := by
  obtain ⟨t0, h0, tl, hl, hr⟩ := hr
  obtain ⟨b2, b1⟩ := C117_times M hO hz hh hK hK'
  replace b1 := b1 t0 h0
  replace b2 := b2 tl hl
  have hr' := A.rel _ _ hr
  have hε := M.eps_nonneg
  have h6 := M.small
  set T := FlatWcdm.age_at_z0 Om0 w0 wa h
  set L := FlatWcdm.lookback_to_z z Om0 w0 wa h
  have hT : 0 ≤ T := (age0_close M hO hh h0).1
  have hL : 0 ≤ L := (lookback_close M hO hz hh hl).1
  have e : FlatWcdm.age_at_z (fun _ : Fin 1 => z) Om0 w0 wa h 0 = T - L := rfl
  rw [e]
  have c1 : 0 ≤ ageCost d w0 wa * ε := mul_nonneg (ageCost_nonneg d w0 wa) hε
  have c2 : 0 ≤ lookCost d z w0 wa * ε := mul_nonneg (lookCost_nonneg d hz w0 wa) hε
  have d1 : |t0 - tl| ≤ 1.0101 * T + 1.0101 * L := by
    have e3 : t0 - tl = (t0 - T) + T + (-(tl - L) + -L) := by ring
    have := abs_add_le ((t0 - T) + T) (-(tl - L) + -L)
    rw [← e3] at this
    have a1 := abs_add_le (t0 - T) T
    have a2 := abs_add_le (-(tl - L)) (-L)
    rw [abs_neg, abs_neg] at a2
    rw [abs_of_nonneg hT] at a1
    rw [abs_of_nonneg hL] at a2
    have k1 := mul_le_mul_of_nonneg_right hK' hT
    have k2 := mul_le_mul_of_nonneg_right hK hL
    norm_num at k1 k2 b1 b2 ⊢; linarith
  have d2 : |r - (t0 - tl)| ≤ ε * (1.0101 * T + 1.0101 * L) := hr'.trans (mul_le_mul M.jax d1 (abs_nonneg _) hε)
  have e4 : r - (T - L) = (r - (t0 - tl)) + (t0 - T) + -(tl - L) := by ring
  rw [e4]
  refine (abs_add_three _ _ _).trans ?_
  rw [abs_neg]
  have n1 := mul_nonneg c1 hT
  have n2 := mul_nonneg c2 hL
  have n3 := mul_nonneg hε hT
  have n4 := mul_nonneg hε hL
  norm_num at b1 b2 d2 ⊢
  nlinarith

/-! ### densities and volumes -/

/-- C117: the critical density. -/
theorem C117_rho_crit (M : Machine P A v ε) (hO : PhysicalOm Om0) (hz : 0 ≤ z) (hh : 0 < h) (hK : (2 * EzCost 0 z w0 wa + 6) * ε ≤ 0.0099) {r : ℝ}
    (hr : r ∈ Rounded.rho_crit P A v z Om0 w0 wa h) :
    |r - FlatWcdm.rho_crit z Om0 w0 wa h| ≤ 1.02 * (2 * EzCost 0 z w0 wa + 6) * ε * FlatWcdm.rho_crit z Om0 w0 wa h := by
  obtain ⟨c, hc, a, ha, b, hb, E, hE, s, hs, hr⟩ := hr
  have h0 := EzCost_nonneg (κ := 0) le_rfl hz w0 wa
  refine M.rel ?_ (by linarith) hK
  have wa' := ((lit_close M (by unfold FlatWcdm.RHO_CRIT0_KPC3_UNITY_H; norm_num) hc).mul (Close.refl hh.le)).rnd M.tolA ha
  have wb := (wa'.mul (Close.refl hh.le)).rnd M.tolA hb
  have ws := (close_intPow M.tolA (Ez_close M hO hz hE) hs).2
  refine ((wb.mul ws).rnd M.tolA hr).mono (le_of_eq ?_)
  push_cast; ring

/-- C117: the differential comoving volume. -/
theorem C117_comoving_volume (M : Machine P A v ε) (hO : PhysicalOm Om0) (hz : 0 < z) (hh : 0 < h)
    (hK : (2 * distCost d z w0 wa + EzCost 0 z w0 wa + 16) * ε ≤ 0.0099) {r : ℝ}
    (hr : r ∈ Rounded.differential_comoving_volume_at_z P A v d z Om0 w0 wa h) :
    |r - FlatWcdm.differential_comoving_volume_at_z z Om0 w0 wa h|
      ≤ 1.02 * (2 * distCost d z w0 wa + EzCost 0 z w0 wa + 16) * ε * FlatWcdm.differential_comoving_volume_at_z z Om0 w0 wa h := by
  obtain ⟨dh, ⟨H0, hH, c, hc, k, hk, hdh⟩, da, hda, s, hs, E, hE, x, hx, q, hq, y, hy, hr⟩ := hr
  have h0 := EzCost_nonneg (κ := 0) le_rfl hz.le w0 wa
  have h1 := distCost_nonneg d hz.le w0 wa
  refine M.rel ?_ (by linarith) hK
  have wH := ((Close.refl (show (0:ℝ) ≤ 100.0 by norm_num)).mul (Close.refl hh.le)).rnd M.tolA hH
  have wc := pyrnd_close M (by unfold FlatWcdm.C_SPEED; norm_num) hc
  have wk := conv_close M (k := 2) (fun p hp => ((wc.div (Close.refl (show (0:ℝ) ≤ 1000.0 by norm_num))).rnd M.tolP hp).mono (by linarith)) hk
  have wdh := (wk.div wH).rnd M.tolA hdh
  have ws := (Close.refl (show 0 ≤ 1.0 + z by norm_num; linarith)).rnd M.tolA hs
  have wx := (ws.mul (ang_close M hO hz.le hh hda)).rnd M.tolA hx
  have hpos : 0 < (1.0 + z) * FlatWcdm.angular_diameter_distance_to_z z Om0 w0 wa h := by
    have h2 : 0 < 1 + z := by linarith
    have := Dtrap_pos hz hO w0 wa
    have := CK_pos hh
    unfold FlatWcdm.angular_diameter_distance_to_z
    rw [comoving_eq]
    have e : (1.0:ℝ) + z = 1 + z := by norm_num
    rw [e]; positivity
  have wq := close_pow M.tolv hpos wx (p := 2.0) (p' := 2.0) (e := 0) (by simp) hq
  have wy := (wdh.mul wq).rnd M.tolA hy
  have wr := (wy.div (Ez_close M hO hz.le hE)).rnd M.tolA hr
  refine Close.mono (δ := _) wr (le_of_eq ?_)
  rw [abs_of_pos (by norm_num : (0:ℝ) < 2.0), zero_mul]
  norm_num; ring

/-! ### virial overdensity and dynamical time -/

lemma Om_close (M : Machine P A v ε) (hO : PhysicalOm Om0) (hz : 0 ≤ z) {r : ℝ} (hr : r ∈ Rounded.Om_at_z A v z Om0 w0 wa) :
    Close ((2 * EzCost 0 z w0 wa + 8) * (1.001 * ε)) r (FlatWcdm.Om_at_z z Om0 w0 wa) := by
  obtain ⟨E, hE, zp1, hzp, c, hc, a, ha, b, hb, hr⟩ := hr
  have wz := (Close.refl (show 0 ≤ 1.0 + z by norm_num; linarith)).rnd M.tolA hzp
  have wc := (close_intPow M.tolA wz hc).2
  have wa' := ((Close.refl hO.1).mul wc).rnd M.tolA ha
  have wE := Ez_close M hO hz hE
  have wb := (wa'.div wE).rnd M.tolA hb
  refine ((wb.div wE).rnd M.tolA hr).mono (le_of_eq ?_)
  push_cast; ring

lemma intPow_pos {x r : ℝ} {k : ℕ} (h : Rounded.IntPow A x k r) : 1 ≤ k := by
  induction h with
  | one => exact le_rfl
  | mul _ _ _ i1 _ => omega

lemma intPow_two {x r : ℝ} (h : Rounded.IntPow A x 2 r) : r ∈ A.mul x x := by
  have aux1 : ∀ {y : ℝ}, Rounded.IntPow A x 1 y → y = x := by
    intro y hy
    generalize hk : (1:ℕ) = k at hy
    cases hy with
    | one => rfl
    | mul h1 h2 _ => have := (intPow_pos h1); have := (intPow_pos h2); omega
  generalize hk : (2:ℕ) = k at h
  cases h with
  | one => omega
  | @mul i j a b _ h1 h2 hr =>
    have k1 := intPow_pos h1
    have k2 := intPow_pos h2
    have : i = 1 := by omega
    have : j = 1 := by omega
    subst i j
    rw [aux1 h1, aux1 h2] at hr
    exact hr

set_option maxHeartbeats 1000000 in
lemma delta_vir_close (M : Machine P A v ε) (hO : PhysicalOm Om0) (hz : 0 ≤ z) (hK : (6 * EzCost 0 z w0 wa + 56) * ε ≤ 0.0099) {r : ℝ}
    (hr : r ∈ Rounded.delta_vir P A v z Om0 w0 wa) :
    Close ((6 * EzCost 0 z w0 wa + 57) * (1.001 * ε)) r (FlatWcdm.delta_vir (fun _ : Fin 1 => z) Om0 w0 wa 0) := by
  obtain ⟨O', hOm, x', hx', pi, hpi, p2, hp2, k, hk, a, ha, s, hs, x2, hx2, b, hb, hr⟩ := hr
  have hε := M.eps_nonneg
  have h6 := M.small
  have hE0 := EzCost_nonneg (κ := 0) le_rfl hz w0 wa
  obtain ⟨-, -, hpos, -⟩ := C53_delta_vir (fun _ : Fin 1 => z) 0 (by linarith) hO w0 wa
  have hO1 : FlatWcdm.Om_at_z z Om0 w0 wa ≤ 1 := (C51_matter_fraction (by linarith) hO w0 wa).2.1
  have hdef : FlatWcdm.delta_vir (fun _ : Fin 1 => z) Om0 w0 wa 0 = 18 * Real.pi ^ 2 + 82 * (FlatWcdm.Om_at_z z Om0 w0 wa - 1)
      - 39 * (FlatWcdm.Om_at_z z Om0 w0 wa - 1) ^ 2 := by unfold FlatWcdm.delta_vir FlatWcdm.Om vmap; norm_num
  have hOc := Om_close M hO hz hOm
  have hOe := M.rel hOc (by linarith) (by nlinarith)
  have hO0 := hOc.1
  set O := FlatWcdm.Om_at_z z Om0 w0 wa
  set E := EzCost 0 z w0 wa
  rw [hdef] at hpos ⊢
  set e := 1.02 * (2 * E + 8) * ε with he
  have he0 : 0 ≤ e := by rw [he]; positivity
  have he1 : e ≤ 0.0101 := by rw [he]; nlinarith
  have hOe' : |O' - O| ≤ e := hOe.trans (by nlinarith)
  -- x
  have hx1 : |x' - (O - 1)| ≤ e + 1.02 * ε := by
    have h1 : |x' - (O' - 1)| ≤ ε * 1.02 := by
      have : |O' - 1| ≤ 1.02 := by
        have := abs_le.1 hOe'
        rw [abs_le]; constructor <;> linarith
      have h0 := A.rel _ _ hx'
      have e1 : (1.0:ℝ) = 1 := by norm_num
      rw [e1] at h0
      exact h0.trans (mul_le_mul M.jax this (abs_nonneg _) hε)
    have e1 : x' - (O - 1) = (x' - (O' - 1)) + (O' - O) := by ring
    rw [e1]; exact (abs_add_le _ _).trans (by linarith)
  have hxa : |x'| ≤ 1.02 := by
    have := abs_le.1 hx1
    rw [abs_le]; constructor <;> linarith
  -- k
  have hπ1 := Real.pi_gt_d2
  have hπ2 := Real.pi_lt_d4
  have hπsq : Real.pi ^ 2 < 9.88 := by nlinarith
  have hkc : Close (5 * (1.001 * ε)) k (18 * Real.pi ^ 2) := by
    have wpi := pyrnd_close M Real.pi_pos.le hpi
    have w2 := close_pow M.tolv Real.pi_pos wpi (p := 2) (p' := 2) (e := 0) (by simp) hp2
    have : Real.pi ^ (2:ℝ) = Real.pi ^ 2 := by exact_mod_cast Real.rpow_natCast Real.pi 2
    rw [this] at w2
    refine (conv_close M (k := 4) (fun p hp => (((Close.refl (show (0:ℝ) ≤ 18 by norm_num)).mul w2).rnd M.tolP hp).mono (le_of_eq ?_)) hk).mono (by linarith)
    norm_num; ring
  have hke : |k - 18 * Real.pi ^ 2| ≤ 910 * ε := by
    refine (M.rel hkc (by norm_num) (by norm_num at h6 ⊢; linarith)).trans ?_
    have : 1.02 * 5 * ε * (18 * Real.pi ^ 2) ≤ 1.02 * 5 * ε * (18 * 9.88) := by gcongr
    norm_num at this ⊢; linarith
  -- a
  have hae : |a - 82 * (O - 1)| ≤ 82 * e + 168 * ε := by
    have h0 := A.rel _ _ ha
    have e1 : (82.0:ℝ) = 82 := by norm_num
    rw [e1] at h0
    have h1 : |a - 82 * x'| ≤ ε * 84 := h0.trans (mul_le_mul M.jax (by rw [abs_mul]; norm_num; linarith) (abs_nonneg _) hε)
    have e2 : a - 82 * (O - 1) = (a - 82 * x') + 82 * (x' - (O - 1)) := by ring
    rw [e2]; refine (abs_add_le _ _).trans ?_
    rw [abs_mul, abs_of_pos (by norm_num : (0:ℝ) < 82)]
    linarith
  have hk_hi : k ≤ 178 := by have := (abs_le.1 hke).2; norm_num at h6 ⊢; linarith
  have hk_lo : 0 ≤ k := hkc.nonneg
  have ha_lo : -84 ≤ a := by have := (abs_le.1 hae).1; norm_num at h6 ⊢; linarith
  have ha_hi : a ≤ 1 := by have := (abs_le.1 hae).2; norm_num at h6 he1 this ⊢; linarith
  have hse : |s - (18 * Real.pi ^ 2 + 82 * (O - 1))| ≤ 82 * e + 1258 * ε := by
    have h1 : |s - (k + a)| ≤ ε * 180 := (A.rel _ _ hs).trans
      (mul_le_mul M.jax (by rw [abs_le]; constructor <;> linarith) (abs_nonneg _) hε)
    have e2 : s - (18 * Real.pi ^ 2 + 82 * (O - 1)) = (s - (k + a)) + (k - 18 * Real.pi ^ 2) + (a - 82 * (O - 1)) := by ring
    rw [e2]; exact (abs_add_three _ _ _).trans (by linarith)
  -- x^2
  have hx2e : |x2 - (O - 1) ^ 2| ≤ 2.02 * e + 3.2 * ε := by
    have h1 : |x2 - x' * x'| ≤ ε * 1.05 := (A.rel _ _ (intPow_two hx2)).trans
      (mul_le_mul M.jax (by rw [abs_mul]; nlinarith [abs_nonneg x']) (abs_nonneg _) hε)
    have e2 : x2 - (O - 1) ^ 2 = (x2 - x' * x') + (x' - (O - 1)) * (x' + (O - 1)) := by ring
    rw [e2]; refine (abs_add_le _ _).trans ?_
    rw [abs_mul]
    have h2 : |x' + (O - 1)| ≤ 2.02 := by
      have := abs_le.1 hxa
      rw [abs_le]; constructor <;> linarith
    have := mul_le_mul hx1 h2 (abs_nonneg _) (by linarith)
    norm_num at h1 this ⊢; linarith
  have hOsq : (O - 1) ^ 2 ≤ 1 := by nlinarith
  have hx2a : |x2| ≤ 1.05 := by
    have h0 := abs_le.1 hx2e
    have := sq_nonneg (O - 1)
    norm_num at h6 he1 h0
    rw [abs_le]; constructor <;> norm_num <;> linarith
  have hbe : |b - 39 * (O - 1) ^ 2| ≤ 78.8 * e + 166 * ε := by
    have h0 := A.rel _ _ hb
    have e1 : (39.0:ℝ) = 39 := by norm_num
    rw [e1] at h0
    have h1 : |b - 39 * x2| ≤ ε * 41 := h0.trans (mul_le_mul M.jax (by rw [abs_mul]; norm_num at hx2a ⊢; linarith) (abs_nonneg _) hε)
    have e2 : b - 39 * (O - 1) ^ 2 = (b - 39 * x2) + 39 * (x2 - (O - 1) ^ 2) := by ring
    rw [e2]; refine (abs_add_le _ _).trans ?_
    rw [abs_mul, abs_of_pos (by norm_num : (0:ℝ) < 39)]
    norm_num at hx2e ⊢; linarith
  have hre : |r - (18 * Real.pi ^ 2 + 82 * (O - 1) - 39 * (O - 1) ^ 2)| ≤ 160.8 * e + 1610 * ε := by
    have hsa := abs_le.1 hse
    have hba := abs_le.1 hbe
    have := sq_nonneg (O - 1)
    norm_num at h6 he1 hba hsa hpos hπsq
    have h1 : |r - (s - b)| ≤ ε * 186 := (A.rel _ _ hr).trans
      (mul_le_mul M.jax (by rw [abs_le]; constructor <;> linarith) (abs_nonneg _) hε)
    have e2 : r - (18 * Real.pi ^ 2 + 82 * (O - 1) - 39 * (O - 1) ^ 2)
        = (r - (s - b)) + (s - (18 * Real.pi ^ 2 + 82 * (O - 1))) + -(b - 39 * (O - 1) ^ 2) := by ring
    rw [e2]; refine (abs_add_three _ _ _).trans ?_
    rw [abs_neg]
    norm_num at hbe ⊢; linarith
  set D := 18 * Real.pi ^ 2 + 82 * (O - 1) - 39 * (O - 1) ^ 2
  have hκ : 160.8 * e + 1610 * ε ≤ ((5.8 * E + 53) * ε) * D := by
    have h2 : ((5.8 * E + 53) * ε) * 56.6 ≤ ((5.8 * E + 53) * ε) * D := by gcongr
    rw [he]
    have := mul_nonneg hE0 hε
    norm_num at h2 ⊢; linarith
  have := Close.of_small (κ := (5.8 * E + 53) * ε) (by linarith) (by positivity) (by
    have := mul_nonneg hE0 hε
    norm_num at hK ⊢; linarith) (hre.trans hκ)
  refine this.mono ?_
  have := mul_nonneg hE0 hε
  norm_num; linarith

/-- cost of the virial dynamical time -/
noncomputable def virialCost (z w0 wa : ℝ) : ℝ := 4 * EzCost 0 z w0 wa + 42

/-- C117: virial overdensity and dynamical time. -/
theorem C117_virial_time (M : Machine P A v ε) (hO : PhysicalOm Om0) (hz : 0 ≤ z) (hh : 0 < h) (hK : (6 * EzCost 0 z w0 wa + 57) * ε ≤ 0.0099) :
    (∀ r ∈ Rounded.delta_vir P A v z Om0 w0 wa,
      |r - FlatWcdm.delta_vir (fun _ : Fin 1 => z) Om0 w0 wa 0|
        ≤ 1.02 * (6 * EzCost 0 z w0 wa + 57) * ε * FlatWcdm.delta_vir (fun _ : Fin 1 => z) Om0 w0 wa 0) ∧
    (∀ r ∈ Rounded.virial_dynamical_time P A v z Om0 w0 wa h,
      |r - FlatWcdm.virial_dynamical_time (fun _ : Fin 1 => z) Om0 w0 wa h 0|
        ≤ 1.02 * virialCost z w0 wa * ε * FlatWcdm.virial_dynamical_time (fun _ : Fin 1 => z) Om0 w0 wa h 0) := by
  have h0 := EzCost_nonneg (κ := 0) le_rfl hz w0 wa
  have hε := M.eps_nonneg
  have hEe := mul_nonneg h0 hε
  have hd : ∀ r ∈ Rounded.delta_vir P A v z Om0 w0 wa, _ := fun r hr => delta_vir_close M hO hz (by linarith) hr
  refine ⟨fun r hr => M.rel (hd r hr) (by linarith) hK, ?_⟩
  rintro r ⟨dl, hdl, k, hk, th, hth, a, ha, b, hb, hr⟩
  unfold virialCost
  refine M.rel ?_ (by linarith) (by linarith)
  have wk := conv_close M (k := 1) (fun p hp => (close_pow M.tolv two_pos (Close.refl two_pos.le) (p := 1.5) (p' := 1.5) (e := 0) (by simp) hp).mono
    (by norm_num)) hk
  have wa' := (wk.mul (hubble_time_close M hO hz hh hth)).rnd M.tolA ha
  obtain ⟨-, -, hpos, -⟩ := C53_delta_vir (fun _ : Fin 1 => z) 0 (by linarith) hO w0 wa
  have wb := close_pow M.tolv (by linarith) (hd dl hdl) (p := -0.5) (p' := -0.5) (e := 0) (by simp) hb
  refine Close.mono (δ := _) ((wa'.mul wb).rnd M.tolA hr) ?_
  rw [abs_of_neg (by norm_num : (-0.5:ℝ) < 0)]
  norm_num; linarith

end Dsps.Props
