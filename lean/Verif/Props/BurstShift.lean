import Verif.Props.MetShift
import Verif.Props.Burst

/-! C146: how the burst parameters shape ages and light (`/repo/dsps/sfh/diffburst.py`). -/
namespace Dsps.Props
open Jnp Dsps.Utils Dsps.Lemmas Dsps.Diffburst Spec Set
open scoped BigOperators

variable {n : ℕ}

/-- the burst weights are the samples of the kernel, normalised -/
lemma pureburst_samples {lgyr : Fin n → ℝ} {peak mx : ℝ} (h : peak < mx) (hs : ∃ i, lgyr i ∈ BurstSupport peak mx) (i : Fin n) :
    (0 < ∑ j, triweight_gaussian (lgyr j) peak ((mx - peak) / 3)) ∧
    pureburst_age_weights_from_params lgyr peak mx i =
      triweight_gaussian (lgyr i) peak ((mx - peak) / 3) / ∑ j, triweight_gaussian (lgyr j) peak ((mx - peak) / 3) := by
  have e1 : 0.5 * ((peak - (mx - peak)) + mx) = peak := by norm_num; ring
  have e2 : (mx - (peak - (mx - peak))) / 6 = (mx - peak) / 3 := by ring
  obtain ⟨j, hj⟩ := hs
  have hp := tw_burst_pos h hj
  rw [e1, e2] at hp
  have hpos : 0 < ∑ j, triweight_gaussian (lgyr j) peak ((mx - peak) / 3) :=
    Finset.sum_pos' (fun i _ => (C02_triweight_density peak ((mx - peak) / 3) (by linarith)).1 _) ⟨j, Finset.mem_univ _, hp⟩
  refine ⟨hpos, ?_⟩
  unfold pureburst_age_weights_from_params zero_safe_normalize
  simp only [e1, e2, Jnp.sum]
  rw [if_neg (not_le.mpr hpos)]

/-- what gains relative to everything outside a set has the larger share in the set -/
lemma share_le {f g : Fin n → ℝ} (hf : 0 < ∑ i, f i) (hg : 0 < ∑ i, g i) (S : Fin n → Prop) [DecidablePred S] (h : ∀ i j, S i → ¬ S j → g i * f j ≤ f i * g j) :
    (∑ i, if S i then g i / ∑ j, g j else 0) ≤ ∑ i, if S i then f i / ∑ j, f j else 0 := by
  have e : ∀ (v : Fin n → ℝ) (D : ℝ), (∑ i, if S i then v i / D else 0) = (∑ i ∈ Finset.univ.filter S, v i) / D := fun v D => by
    rw [← Finset.sum_filter, Finset.sum_div]
  have split : ∀ v : Fin n → ℝ, ∑ i, v i = (∑ i ∈ Finset.univ.filter S, v i) + ∑ i ∈ Finset.univ.filter (fun i => ¬ S i), v i := fun v =>
    (Finset.sum_filter_add_sum_filter_not _ _ _).symm
  rw [e, e, div_le_div_iff₀ hg hf, split f, split g]
  have key : (∑ i ∈ Finset.univ.filter S, g i) * ∑ i ∈ Finset.univ.filter (fun i => ¬ S i), f i ≤ (∑ i ∈ Finset.univ.filter S, f i) * ∑ i ∈ Finset.univ.filter (fun i => ¬ S i), g i := by
    rw [Finset.sum_mul_sum, Finset.sum_mul_sum]
    refine Finset.sum_le_sum fun i hi => Finset.sum_le_sum fun j hj => h i j ?_ ?_
    · exact (Finset.mem_filter.mp hi).2
    · exact (Finset.mem_filter.mp hj).2
  linarith

/-- C146: **a burst with an older peak has older stars**: for bursts of the same duration, the older the peak, the smaller the share of the youngest ages, however many are counted. -/
theorem C146_older_peak {lgyr : Fin n → ℝ} (hm : Monotone lgyr) {peak peak' mx mx' : ℝ} (h : peak < mx) (hp : peak ≤ peak') (hd : mx' - peak' = mx - peak)
    (hs : ∃ i, lgyr i ∈ BurstSupport peak mx) (hs' : ∃ i, lgyr i ∈ BurstSupport peak' mx') (j : Fin n) :
    (∑ i, if i ≤ j then pureburst_age_weights_from_params lgyr peak' mx' i else 0) ≤ ∑ i, if i ≤ j then pureburst_age_weights_from_params lgyr peak mx i else 0 := by
  have h' : peak' < mx' := by linarith
  have k1 := fun i => pureburst_samples h hs i
  have k2 := fun i => pureburst_samples h' hs' i
  simp only [fun i => (k1 i).2, fun i => (k2 i).2]
  refine share_le (k1 j).1 (k2 j).1 (· ≤ j) fun a b ha hb => ?_
  have hab : lgyr a ≤ lgyr b := hm (ha.trans (not_le.mp hb).le)
  rw [hd]
  have hσ : 0 < (mx - peak) / 3 := by linarith
  generalize (mx - peak) / 3 = σ at hσ ⊢
  rw [triweight_gaussian_eq, triweight_gaussian_eq, triweight_gaussian_eq, triweight_gaussian_eq, div_mul_div_comm, div_mul_div_comm]
  refine div_le_div_of_nonneg_right ?_ (mul_pos hσ hσ).le
  have := twc_mlr (a := (lgyr a - peak') / σ) (s := (lgyr b - lgyr a) / σ) (d := (peak' - peak) / σ) (div_nonneg (by linarith) hσ.le) (div_nonneg (by linarith) hσ.le)
  rw [show (lgyr a - peak') / σ + (lgyr b - lgyr a) / σ + (peak' - peak) / σ = (lgyr b - peak) / σ by field_simp; ring,
    show (lgyr a - peak') / σ + (peak' - peak) / σ = (lgyr a - peak) / σ by field_simp; ring,
    show (lgyr a - peak') / σ + (lgyr b - lgyr a) / σ = (lgyr b - peak') / σ by field_simp; ring] at this
  exact this

lemma twc_spread {x y q r : ℝ} (hq : 0 < q) (hqr : q ≤ r) (hxy : |x| ≤ |y|) : twc (x / r) * twc (y / q) ≤ twc (x / q) * twc (y / r) := by
  have hr := hq.trans_le hqr
  rw [twc_eq_max, twc_eq_max, twc_eq_max, twc_eq_max]
  set g : ℝ → ℝ := fun z => max 0 (1 - (z / 3) ^ 2) with hg
  have g0 : ∀ z, 0 ≤ g z := fun z => le_max_left _ _
  have key : g (x / r) * g (y / q) ≤ g (x / q) * g (y / r) := by
    rcases le_or_gt (1 - (y / q / 3) ^ 2) 0 with h | h
    · have : g (y / q) = 0 := max_eq_left h
      rw [this, mul_zero]; exact mul_nonneg (g0 _) (g0 _)
    have hsq : x ^ 2 ≤ y ^ 2 := sq_le_sq.mpr hxy
    have hqr2 : q ^ 2 ≤ r ^ 2 := pow_le_pow_left₀ hq.le hqr 2
    have e : ∀ u v : ℝ, (u / v / 3) ^ 2 = u ^ 2 * (1 / v ^ 2) / 9 := fun u v => by rw [div_pow, div_pow]; ring
    have hinv : 1 / r ^ 2 ≤ 1 / q ^ 2 := one_div_le_one_div_of_le (by positivity) hqr2
    have i0 : 0 < 1 / r ^ 2 := by positivity
    have p1 : 0 < 1 - (x / q / 3) ^ 2 := by rw [e] at h ⊢; nlinarith
    have p2 : 0 < 1 - (y / r / 3) ^ 2 := by rw [e] at h ⊢; nlinarith [sq_nonneg y]
    have p3 : 0 < 1 - (x / r / 3) ^ 2 := by rw [e] at p2 ⊢; nlinarith
    rw [show g (x / r) = _ from max_eq_right p3.le, show g (y / q) = _ from max_eq_right h.le, show g (x / q) = _ from max_eq_right p1.le, show g (y / r) = _ from max_eq_right p2.le,
      e, e, e, e]
    nlinarith [mul_nonneg (sub_nonneg.mpr hsq) (sub_nonneg.mpr hinv)]
  have := pow_le_pow_left₀ (mul_nonneg (g0 _) (g0 _)) key 3
  rw [mul_pow, mul_pow] at this
  nlinarith

/-- C146: **a longer burst is spread more widely**: for bursts with the same peak the share of the ages within any distance of the peak shrinks as the burst gets longer. -/
theorem C146_longer {lgyr : Fin n → ℝ} {peak mx mx' : ℝ} (h : peak < mx) (hp : mx ≤ mx') (hs : ∃ i, lgyr i ∈ BurstSupport peak mx) (d : ℝ) :
    (∑ i, if |lgyr i - peak| ≤ d then pureburst_age_weights_from_params lgyr peak mx' i else 0) ≤
      ∑ i, if |lgyr i - peak| ≤ d then pureburst_age_weights_from_params lgyr peak mx i else 0 := by
  have h' : peak < mx' := by linarith
  have hs' : ∃ i, lgyr i ∈ BurstSupport peak mx' := hs.imp fun i hi => ⟨by linarith [hi.1], by linarith [hi.2]⟩
  obtain ⟨j, _⟩ := id hs
  have k1 := fun i => pureburst_samples h hs i
  have k2 := fun i => pureburst_samples h' hs' i
  simp only [fun i => (k1 i).2, fun i => (k2 i).2]
  refine share_le (k1 j).1 (k2 j).1 (fun i => |lgyr i - peak| ≤ d) fun a b ha hb => ?_
  have hq : 0 < (mx - peak) / 3 := by linarith
  have hr : 0 < (mx' - peak) / 3 := by linarith
  have hqr : (mx - peak) / 3 ≤ (mx' - peak) / 3 := by linarith
  generalize (mx - peak) / 3 = q at hq hqr ⊢
  generalize (mx' - peak) / 3 = r at hr hqr ⊢
  rw [triweight_gaussian_eq, triweight_gaussian_eq, triweight_gaussian_eq, triweight_gaussian_eq, div_mul_div_comm, div_mul_div_comm, mul_comm r q]
  exact div_le_div_of_nonneg_right (twc_spread hq hqr (ha.trans (not_le.mp hb).le)) (mul_pos hq hr).le

/-- C146: **the light of a bursty galaxy** lies, for every array of light per unit mass, in proportion of the burst's mass fraction between that of the smooth history and that of the burst; so it grows with the mass
fraction if the burst is brighter than the smooth population. -/
theorem C146_light (lgfburst peak mx : ℝ) (smooth lg_age_gyr f : Fin n → ℝ) :
    let light := fun v : Fin n → ℝ => ∑ i, v i * f i
    let burst := pureburst_age_weights_from_params (fun i => lg_age_gyr i + 9) peak mx
    light (calc_bursty_age_weights ⟨lgfburst, peak, mx⟩ smooth lg_age_gyr) = (1 - (10:ℝ) ^ lgfburst) * light smooth + (10:ℝ) ^ lgfburst * light burst ∧
    (light smooth ≤ light burst → ∀ lgfburst', lgfburst ≤ lgfburst' →
      light (calc_bursty_age_weights ⟨lgfburst, peak, mx⟩ smooth lg_age_gyr) ≤ light (calc_bursty_age_weights ⟨lgfburst', peak, mx⟩ smooth lg_age_gyr)) := by
  intro light burst
  have form : ∀ x, light (calc_bursty_age_weights ⟨x, peak, mx⟩ smooth lg_age_gyr) = (1 - (10:ℝ) ^ x) * light smooth + (10:ℝ) ^ x * light burst := fun x => by
    simp only [light]
    rw [Finset.mul_sum, Finset.mul_sum, ← Finset.sum_add_distrib]
    refine Finset.sum_congr rfl fun i _ => ?_
    have := C31_affine ⟨x, peak, mx⟩ smooth lg_age_gyr i
    simp only at this
    have e : calc_bursty_age_weights ⟨x, peak, mx⟩ smooth lg_age_gyr i = smooth i + (10:ℝ) ^ x * (burst i - smooth i) := by linarith
    rw [e]; ring
  refine ⟨form _, fun h y hy => ?_⟩
  rw [form, form]
  have : (10:ℝ) ^ lgfburst ≤ (10:ℝ) ^ y := Real.rpow_le_rpow_of_exponent_le (by norm_num) hy
  nlinarith

/-- C146: **a burst in an old galaxy brightens it** at every wavelength where populations fade with age: if no star of the smooth population is younger than the end of the burst, the light grows with the burst's mass
fraction, and exceeds that of the smooth population. -/
theorem C146_brightens {lgfburst lgfburst' peak mx : ℝ} {smooth lg_age_gyr f : Fin n → ℝ} (h : peak < mx) (hy : lgfburst ≤ lgfburst') (hm : StrictMono lg_age_gyr) (hf : Antitone f)
    (hprob : IsProbVector smooth) (hold : ∀ i, smooth i ≠ 0 → mx ≤ lg_age_gyr i + 9) (hs : ∃ i, lg_age_gyr i + 9 ∈ BurstSupport peak mx) :
    ∑ i, smooth i * f i ≤ ∑ i, calc_bursty_age_weights ⟨lgfburst, peak, mx⟩ smooth lg_age_gyr i * f i ∧
    ∑ i, calc_bursty_age_weights ⟨lgfburst, peak, mx⟩ smooth lg_age_gyr i * f i ≤ ∑ i, calc_bursty_age_weights ⟨lgfburst', peak, mx⟩ smooth lg_age_gyr i * f i := by
  have hW := C29_pureburst_weights (fun i => lg_age_gyr i + 9) peak mx h
  have hsum : ∑ i, pureburst_age_weights_from_params (fun i => lg_age_gyr i + 9) peak mx i = 1 := by
    rw [hW.2.2.2]; exact if_pos hs
  set b := pureburst_age_weights_from_params (fun i => lg_age_gyr i + 9) peak mx
  have key : ∑ i, smooth i * f i ≤ ∑ i, b i * f i := by
    have h1 : ∑ i, smooth i * f i = ∑ i, ∑ j, smooth i * b j * f i := by
      refine Finset.sum_congr rfl fun i _ => ?_
      rw [← Finset.sum_mul, ← Finset.mul_sum, hsum, mul_one]
    have h2 : ∑ i, b i * f i = ∑ i, ∑ j, smooth i * b j * f j := by
      rw [Finset.sum_comm]
      refine Finset.sum_congr rfl fun j _ => ?_
      rw [← Finset.sum_mul, ← Finset.sum_mul, hprob.2, one_mul]
    rw [h1, h2]
    refine Finset.sum_le_sum fun i _ => Finset.sum_le_sum fun j _ => ?_
    by_cases hi : smooth i = 0
    · rw [hi]; simp
    by_cases hj : lg_age_gyr j + 9 ∈ BurstSupport peak mx
    · refine mul_le_mul_of_nonneg_left (hf ?_) (mul_nonneg (hprob.1 i) (hW.1 j))
      have : lg_age_gyr j < lg_age_gyr i := by linarith [hold i hi, hj.2]
      exact (hm.lt_iff_lt.mp this).le
    · rw [show b j = 0 from hW.2.1 j hj]; simp
  have hL := C146_light lgfburst peak mx smooth lg_age_gyr f
  simp only at hL
  refine ⟨?_, hL.2 key lgfburst' hy⟩
  rw [hL.1]
  have : (0:ℝ) < (10:ℝ) ^ lgfburst := by positivity
  nlinarith

/-! ## cases -/

lemma case_steps (n : ℕ) (c : ℝ) {d : ℝ} (hd : 0 < d) : StrictMono fun i : Fin n => c + d * i := fun i j h => by
  have : (i.val : ℝ) < j.val := by exact_mod_cast h
  simp only; nlinarith

example := C146_older_peak (lgyr := fun i : Fin 4 => 5 + 1 * i) (peak := 5.5) (peak' := 6.5) (mx := 7) (mx' := 8) (case_steps 4 5 one_pos).monotone (by norm_num) (by norm_num) (by norm_num)
  ⟨1, by norm_num [BurstSupport]⟩ ⟨1, by norm_num [BurstSupport]⟩ 1
example := C146_longer (lgyr := fun i : Fin 4 => 5 + 1 * i) (peak := 5.5) (mx := 7) (mx' := 8) (by norm_num) (by norm_num) ⟨1, by norm_num [BurstSupport]⟩ 1
example := C146_brightens (lgfburst := -3) (lgfburst' := -2) (peak := 5.5) (mx := 7) (smooth := ![0, 0, 1]) (lg_age_gyr := fun i : Fin 3 => -3 + 2 * i) (f := fun i => -(1 + 2 * i)) (by norm_num) (by norm_num)
  (case_steps 3 (-3) two_pos) (fun i j h => neg_le_neg ((case_steps 3 1 two_pos).monotone h))
  ⟨fun i => by fin_cases i <;> norm_num, by simp [Fin.sum_univ_succ]⟩ (fun i => by fin_cases i <;> norm_num) ⟨0, by norm_num [BurstSupport]⟩

end Dsps.Props
