import Verif.Lemmas.RoundCosmo
import Verif.Lemmas.Age
import Mathlib.Analysis.Complex.ExponentialBounds

/-! Floating-point accuracy of the quadratures of `flat_wcdm.py`. -/
namespace Dsps.Lemmas
open Jnp Fl Spec

variable {A P : Arith} {η v : ℝ}

open Classical in
/-- cost, in roundings, of an inexact uniform redshift table of `n+2` points: 3 if the dark energy is never phantom (then the expansion rate
increases with redshift, and errors of neighbouring table entries cancel), the worst case otherwise -/
noncomputable def gridCost (n : ℕ) (w0 wa : ℝ) : ℝ := if NonPhantom w0 wa then 3 else 3.2 * (2 * n + 1)

lemma close_quad (ht : Tol η A.u) {z : ℝ} (hz : 0 ≤ z) {n d : ℕ} (hn : (2 * n + 1 : ℝ) * (3.1 * η) ≤ 1 / 100) {x : Fin (n + 2) → ℝ}
    (hx : x ∈ Rounded.linspace A 0 z n) {f : ℝ → ℝ} {w0 wa : ℝ} (hf0 : ∀ y, 0 ≤ y → 0 ≤ f y)
    (hf : NonPhantom w0 wa → ∀ y y', 0 ≤ y → y ≤ y' → f y' ≤ f y) {k : ℝ} {y' : Fin (n + 2) → ℝ}
    (hy : ∀ i, Close k (y' i) (f (linspace 0 z n i))) {r : ℝ} (hr : r ∈ Rounded.trapezoid A d y' x) :
    Close (gridCost n w0 wa * η + k + (d + 4) * η) r (Utils.trapz (linspace 0 z n) fun i => f (linspace 0 z n i)) := by
  have hη := ht.nonneg
  have hsp := linspace_spacing ht hz hn hx
  unfold gridCost
  split_ifs with hw
  · have h1 : ∀ i : Fin (n + 1), 0 ≤ x i.succ - x i.castSucc := fun i => (hsp i).nonneg
    have w1 := close_trapezoid ht (fun i => Close.refl (h1 i)) hy hr
    have hanti : Antitone fun i => f (linspace 0 z n i) := by
      rw [Fin.antitone_iff_succ_le]
      intro i
      refine hf hw _ _ (linspace_nonneg hz n _) ?_
      have := (linspace_cell z n i).1
      have hc : 0 ≤ z / ((n:ℝ) + 1) := by positivity
      linarith
    have h0 : linspace 0 z n 0 = 0 := by rw [linspace_zero_eq]; simp
    have w2 := close_trapz_abel (close_linspace ht hz hx) h0 hanti fun i => hf0 _ (linspace_nonneg hz n i)
    exact (w1.trans w2).mono (by linarith)
  · exact (close_trapezoid ht hsp hy hr).mono (by linarith)

lemma one_add_close (ht : Tol η A.u) {z : ℝ} (hz : 0 ≤ z) {n : ℕ} {x : Fin (n + 2) → ℝ} (hx : x ∈ Rounded.linspace A 0 z n) (i : Fin (n + 2)) :
    Close (3 * η) (1 + x i) (1 + linspace 0 z n i) :=
  ((Close.refl zero_le_one).mono (by linarith [ht.nonneg])).add (close_linspace ht hz hx i)

lemma log_one_add_le {z : ℝ} (hz : 0 ≤ z) (n : ℕ) (i : Fin (n + 2)) : Real.log (1 + linspace 0 z n i) ≤ Real.log (1 + z) :=
  Real.log_le_log (by linarith [linspace_nonneg hz n i]) (by linarith [linspace_le hz n i])

/-- `1/E/(1+z)` -/
noncomputable def ft (Om0 w0 wa y : ℝ) : ℝ := 1 / FlatWcdm.Ez y Om0 w0 wa / (1 + y)

lemma ft_nonneg {Om0 : ℝ} (hO : PhysicalOm Om0) (w0 wa : ℝ) {y : ℝ} (hy : 0 ≤ y) : 0 ≤ ft Om0 w0 wa y := by
  have := Ez_pos (by linarith : -1 < y) hO w0 wa
  unfold ft; positivity

lemma ft_anti {Om0 : ℝ} (hO : PhysicalOm Om0) {w0 wa : ℝ} (hw : NonPhantom w0 wa) (y y' : ℝ) (hy : 0 ≤ y) (hyy : y ≤ y') :
    ft Om0 w0 wa y' ≤ ft Om0 w0 wa y := by
  have h1 := Ez_pos (by linarith : -1 < y) hO w0 wa
  have h2 := Ez_mono hO hw hy hyy
  unfold ft
  gcongr

lemma close_integrand (hη1 : η ≤ 1 / 1000) (ht : Tol η A.u) (hv : Tol η v) {κ z z' Om0 w0 wa L : ℝ} (hO : PhysicalOm Om0) (hκ : 0 ≤ κ)
    (hsmall : (κ + 2) * η ≤ 1 / 100) (hz : 0 ≤ z) (hzz : Close (κ * η) (1 + z') (1 + z)) (hL : Real.log (1 + z) ≤ L) {r : ℝ}
    (hr : r ∈ Rounded.integrand_oneOverEz A v z' Om0 w0 wa) :
    Close ((KE κ L w0 wa + 1) * η) r (1 / FlatWcdm.Ez z Om0 w0 wa) := by
  obtain ⟨E, h1, h2⟩ := hr
  exact (((Close.refl zero_le_one).div (close_Ez hη1 ht hv hO hκ hsmall hz hzz hL h1)).rnd ht h2).mono (by linarith)

lemma close_integrand_time (hη1 : η ≤ 1 / 1000) (ht : Tol η A.u) (hv : Tol η v) {κ z z' Om0 w0 wa L : ℝ} (hO : PhysicalOm Om0) (hκ : 0 ≤ κ)
    (hsmall : (κ + 2) * η ≤ 1 / 100) (hz : 0 ≤ z) (hzz : Close (κ * η) (1 + z') (1 + z)) (hL : Real.log (1 + z) ≤ L) {r : ℝ}
    (hr : r ∈ Rounded.integrand_time A v z' Om0 w0 wa) : Close ((KE κ L w0 wa + κ + 3) * η) r (ft Om0 w0 wa z) := by
  obtain ⟨E, h1, q, h2, s, h3, h4⟩ := hr
  have w1 := ((Close.refl zero_le_one).div (close_Ez hη1 ht hv hO hκ hsmall hz hzz hL h1)).rnd ht h2
  exact ((w1.div (hzz.rnd ht h3)).rnd ht h4).mono (by linarith)

/-! ### the age table -/

lemma log10_bounds : 2.302 ≤ Real.log 10 ∧ Real.log 10 ≤ 2.303 := by
  have h2 := Real.log_two_gt_d9
  have h2' := Real.log_two_lt_d9
  have e : Real.log 10 = Real.log 1024 / 3 + (Real.log (1000 / 1024)) / 3 := by
    rw [Real.log_div (by norm_num) (by norm_num), show (1000:ℝ) = 10 ^ 3 by norm_num, Real.log_pow]; push_cast; ring
  have e2 : Real.log 1024 = 10 * Real.log 2 := by rw [show (1024:ℝ) = 2 ^ 10 by norm_num, Real.log_pow]; norm_num
  have a1 := Real.one_sub_inv_le_log_of_pos (x := (1000:ℝ) / 1024) (by norm_num)
  have a2 := Real.log_le_sub_one_of_pos (x := (1000:ℝ) / 1024) (by norm_num)
  rw [e, e2]
  norm_num at a1 a2 h2 h2' ⊢
  constructor <;> linarith

/-- table entries of `age_at_z0`: `1 + z` up to 23 roundings -/
lemma close_agrid (hη1 : η ≤ 1 / 10000) (ht : Tol η A.u) (hv : Tol η v) {lg y z : Fin 512 → ℝ} (h1 : lg ∈ Rounded.linspace A 0 3 510)
    (h2 : y ∈ vec fun i => Rounded.exp10 v (lg i)) (h3 : z ∈ vec fun i => A.sub (y i) 1.0) (i : Fin 512) :
    Close (23 * η) (1 + z i) (1 + agrid i) := by
  have hη := ht.nonneg
  have e0 : 1 + agrid i = Jnp.exp10 (linspace 0 3 510 i) := by unfold agrid logspace; norm_num
  have w1 := (close_linspace ht (by norm_num) h1 i).rel (by linarith) (by linarith)
  have l3 := linspace_le (show (0:ℝ) ≤ 3 by norm_num) 510 i
  have w2 : |lg i - linspace 0 3 510 i| ≤ 9.09 * η := by
    have := mul_le_mul_of_nonneg_left l3 (show 0 ≤ 1.01 * (3 * η) by positivity)
    norm_num at this w1 ⊢; linarith
  have hy : Close η (y i) (Jnp.exp10 (lg i)) := Close.of_rel hv (Real.rpow_nonneg (by norm_num) _) (h2 i)
  have w3 : Close (21 * η) (Jnp.exp10 (lg i)) (Jnp.exp10 (linspace 0 3 510 i)) := by
    unfold Jnp.exp10
    refine Close.of_log (Real.rpow_pos_of_pos (by norm_num) _) (Real.rpow_pos_of_pos (by norm_num) _) ?_
    rw [Real.log_rpow (by norm_num), Real.log_rpow (by norm_num), ← sub_mul, abs_mul, abs_of_pos (Real.log_pos (by norm_num))]
    have := mul_le_mul w2 log10_bounds.2 (Real.log_nonneg (by norm_num)) (by positivity)
    norm_num at this ⊢; linarith
  have w4 := hy.trans w3
  have hY : 1 ≤ Jnp.exp10 (linspace 0 3 510 i) := by rw [← e0]; linarith [agrid_nonneg i]
  have hyp : 1 / 2 ≤ y i := by
    have := w4.2.1
    have h5 := Real.add_one_le_exp (-(η + 21 * η))
    have h6 := Real.exp_pos (-(η + 21 * η))
    nlinarith
  have w5 : Close η (1 + z i) (y i) := by
    refine Close.of_rel ht (by linarith) ?_
    have := A.rel _ _ (h3 i)
    have e : (1.0:ℝ) = 1 := by norm_num
    rw [e] at this
    rw [show 1 + z i - y i = z i - (y i - 1) by ring]
    refine this.trans (mul_le_mul_of_nonneg_left ?_ ht.1)
    rw [abs_le]; constructor <;> linarith
  rw [e0]
  exact (w5.trans w4).mono (by linarith)

lemma aratio_ge : 1.0135 ≤ aratio := by
  unfold aratio
  rw [Real.rpow_def_of_pos (by norm_num)]
  have := Real.add_one_le_exp (Real.log 10 * (3 / 511))
  have h := log10_bounds.1
  norm_num at h ⊢; linarith

lemma agrid_spacing (i : Fin 511) : (1 + agrid i.succ) + (1 + agrid i.castSucc) ≤ 150 * (agrid i.succ - agrid i.castSucc) := by
  have h1 := agrid_succ i
  have h2 := aratio_ge
  have h3 := agrid_nonneg i.castSucc
  have e : agrid i.succ - agrid i.castSucc = (aratio - 1) * (1 + agrid i.castSucc) := by linarith
  rw [e, h1]
  norm_num at h2
  nlinarith

open Classical in
/-- cost, in roundings, of the inexact redshift table of `age_at_z0` -/
noncomputable def ageGridCost (w0 wa : ℝ) : ℝ := if NonPhantom w0 wa ∧ NonStiff w0 wa then 98 else 3600

lemma trapz_abel' {n : ℕ} (x f : Fin (n + 2) → ℝ) :
    2 * Utils.trapz x f = x (Fin.last (n + 1)) * (f (Fin.last (n + 1)) + f (Fin.last n).castSucc)
      + ∑ i : Fin n, x i.castSucc.succ * (f i.castSucc.castSucc - f i.succ.succ) - x 0 * (f 0 + f 1) := by
  rw [trapz_eq, Finset.mul_sum]
  induction n with
  | zero => simp; ring
  | succ n ih =>
    rw [Fin.sum_univ_castSucc]
    have := ih (fun i => x i.castSucc) (fun i => f i.castSucc)
    simp only [Fin.succ_castSucc] at this ⊢
    rw [this, Fin.sum_univ_castSucc (n := n)]
    simp only [Fin.succ_castSucc, Fin.succ_last, Fin.castSucc_zero]
    have e1 : (1 : Fin (n + 2)).castSucc = 1 := rfl
    rw [e1]
    ring

lemma trapz_shift {n : ℕ} (x f : Fin (n + 1) → ℝ) : Utils.trapz (fun i => 1 + x i) f = Utils.trapz x f := by
  rw [trapz_eq, trapz_eq]
  exact Finset.sum_congr rfl fun i _ => by ring

lemma Atrap_one (w0 wa : ℝ) : Atrap 1 w0 wa = Atrap 1 (-1) 0 := by
  unfold Atrap FlatWcdm.Ez
  norm_num

lemma Atrap_lower {Om0 w0 wa : ℝ} (hO : PhysicalOm Om0) (hw : NonStiff w0 wa) : 0.65 ≤ Atrap Om0 w0 wa := by
  have h1 := Atrap_anti_Om hO hO.2 hw
  have h2 := Atrap_ge phys_one
  rw [Atrap_one] at h1
  refine le_trans ?_ (h2.trans h1)
  rw [eds_integral (by norm_num) (by norm_num), Lf_one, Lf_one]
  have h3 : (100:ℝ) ≤ Real.sqrt ((1 + 999) ^ 3) := Real.le_sqrt_of_sq_le (by norm_num)
  have h4 : 1 / Real.sqrt ((1 + 999) ^ 3) ≤ 1 / 100 := one_div_le_one_div_of_le (by norm_num) h3
  norm_num at h4 ⊢; linarith

/-- the quadrature of `age_at_z0` -/
lemma close_age_quad (hη1 : 3600 * η ≤ 1 / 100) (ht : Tol η A.u) (hv : Tol η v) {lg y z : Fin 512 → ℝ} (h1 : lg ∈ Rounded.linspace A 0 3 510)
    (h2 : y ∈ vec fun i => Rounded.exp10 v (lg i)) (h3 : z ∈ vec fun i => A.sub (y i) 1.0) {Om0 w0 wa k : ℝ} (hO : PhysicalOm Om0) {d : ℕ}
    {y' : Fin 512 → ℝ} (hy : ∀ i, Close k (y' i) (ft Om0 w0 wa (agrid i))) {r : ℝ} (hr : r ∈ Rounded.trapezoid A d y' z) :
    Close (ageGridCost w0 wa * η + k + (d + 4) * η) r (Atrap Om0 w0 wa) := by
  have hη := ht.nonneg
  have hz := close_agrid (by linarith) ht hv h1 h2 h3
  have hz' : ∀ i, |z i - agrid i| ≤ 23.3 * η * (1 + agrid i) := fun i => by
    have := (hz i).rel (by linarith) (by linarith)
    rw [show 1 + z i - (1 + agrid i) = z i - agrid i by ring] at this
    have h0 := mul_nonneg hη (show 0 ≤ 1 + agrid i by linarith [agrid_nonneg i])
    norm_num at this ⊢; linarith
  have hsp : ∀ i : Fin 511, Close (3600 * η) (z i.succ - z i.castSucc) (agrid i.succ - agrid i.castSucc) := fun i => by
    have hs := agrid_spacing i
    have hm : 0 ≤ agrid i.succ - agrid i.castSucc := sub_nonneg.2 (agrid_mono.monotone (Fin.castSucc_lt_succ (i := i)).le)
    have a1 := hz' i.succ
    have a2 := hz' i.castSucc
    have key : |z i.succ - z i.castSucc - (agrid i.succ - agrid i.castSucc)| ≤ (3495 * η) * (agrid i.succ - agrid i.castSucc) := by
      calc _ = |(z i.succ - agrid i.succ) - (z i.castSucc - agrid i.castSucc)| := by congr 1; ring
        _ ≤ |z i.succ - agrid i.succ| + |z i.castSucc - agrid i.castSucc| := _root_.abs_sub _ _
        _ ≤ 23.3 * η * ((1 + agrid i.succ) + (1 + agrid i.castSucc)) := by linarith
        _ ≤ 23.3 * η * (150 * (agrid i.succ - agrid i.castSucc)) := mul_le_mul_of_nonneg_left hs (by positivity)
        _ = _ := by norm_num; ring
    refine (Close.of_small hm (by positivity) (by linarith) key).mono ?_
    norm_num; linarith
  unfold ageGridCost
  split_ifs with hw
  · have hm : ∀ i : Fin 511, 0 ≤ z i.succ - z i.castSucc := fun i => (hsp i).nonneg
    have w1 := close_trapezoid ht (fun i => Close.refl (hm i)) hy hr
    set f : Fin 512 → ℝ := fun i => ft Om0 w0 wa (agrid i) with hf
    have hT : Utils.trapz agrid f = Atrap Om0 w0 wa := rfl
    have hanti : Antitone f := fun i j hij => ft_anti hO hw.1 _ _ (agrid_nonneg i) (agrid_mono.monotone hij)
    have hf0 : ∀ i, 0 ≤ f i := fun i => ft_nonneg hO w0 wa (agrid_nonneg i)
    have hf1 : f 0 = 1 := by
      simp only [hf, ft, agrid_zero]; rw [Ez_zero]; norm_num
    have e1 := trapz_abel' (n := 510) z f
    have e2 := trapz_abel' (n := 510) agrid f
    -- weights of the summation by parts
    have g1 : 0 ≤ f (Fin.last 511) + f (Fin.last 510).castSucc := add_nonneg (hf0 _) (hf0 _)
    have g2 : ∀ i : Fin 510, 0 ≤ f i.castSucc.castSucc - f i.succ.succ := fun i => sub_nonneg.2 (hanti (by
      rw [Fin.le_def]; simp only [Fin.val_castSucc, Fin.val_succ]; omega))
    have g3 : 0 ≤ f 0 + f 1 := add_nonneg (hf0 _) (hf0 _)
    have g4 : f 0 + f 1 ≤ 2 := by
      have := hanti (Fin.zero_le (1 : Fin 512)); linarith
    -- total weight: `Σ (1 + x) w`
    have e3 : 2 * Utils.trapz agrid f = (1 + agrid (Fin.last 511)) * (f (Fin.last 511) + f (Fin.last 510).castSucc)
        + ∑ i : Fin 510, (1 + agrid i.castSucc.succ) * (f i.castSucc.castSucc - f i.succ.succ) - (1 + agrid 0) * (f 0 + f 1) := by
      have := trapz_abel' (n := 510) (fun i => 1 + agrid i) f
      rw [← this, trapz_shift]
    have b1 : |z (Fin.last 511) * (f (Fin.last 511) + f (Fin.last 510).castSucc) - agrid (Fin.last 511) * (f (Fin.last 511) + f (Fin.last 510).castSucc)|
        ≤ 23.3 * η * ((1 + agrid (Fin.last 511)) * (f (Fin.last 511) + f (Fin.last 510).castSucc)) := by
      rw [← sub_mul, abs_mul, abs_of_nonneg g1, ← mul_assoc]
      exact mul_le_mul_of_nonneg_right (hz' (Fin.last 511)) g1
    have b2 : |∑ i : Fin 510, z i.castSucc.succ * (f i.castSucc.castSucc - f i.succ.succ)
        - ∑ i : Fin 510, agrid i.castSucc.succ * (f i.castSucc.castSucc - f i.succ.succ)|
        ≤ 23.3 * η * ∑ i : Fin 510, (1 + agrid i.castSucc.succ) * (f i.castSucc.castSucc - f i.succ.succ) := by
      rw [← Finset.sum_sub_distrib, Finset.mul_sum]
      refine (Finset.abs_sum_le_sum_abs _ _).trans (Finset.sum_le_sum fun i _ => ?_)
      rw [← sub_mul, abs_mul, abs_of_nonneg (g2 i), ← mul_assoc]
      exact mul_le_mul_of_nonneg_right (hz' _) (g2 i)
    have b3 : |z 0 * (f 0 + f 1) - agrid 0 * (f 0 + f 1)| ≤ 23.3 * η * ((1 + agrid 0) * (f 0 + f 1)) := by
      rw [← sub_mul, abs_mul, abs_of_nonneg g3, ← mul_assoc]
      exact mul_le_mul_of_nonneg_right (hz' 0) g3
    have hlow := Atrap_lower hO hw.2
    have key : |Utils.trapz z f - Utils.trapz agrid f| ≤ (95.1 * η) * Utils.trapz agrid f := by
      have h0 : agrid 0 = 0 := agrid_zero
      rw [h0] at b3 e2 e3
      have c1 := abs_le.1 b1
      have c2 := abs_le.1 b2
      have c3 := abs_le.1 b3
      rw [hT] at *
      generalize z (Fin.last 511) * (f (Fin.last 511) + f (Fin.last 510).castSucc) = X1 at *
      generalize agrid (Fin.last 511) * (f (Fin.last 511) + f (Fin.last 510).castSucc) = X2 at *
      generalize ∑ i : Fin 510, z i.castSucc.succ * (f i.castSucc.castSucc - f i.succ.succ) = X3 at *
      generalize ∑ i : Fin 510, agrid i.castSucc.succ * (f i.castSucc.castSucc - f i.succ.succ) = X4 at *
      generalize ∑ i : Fin 510, (1 + agrid i.castSucc.succ) * (f i.castSucc.castSucc - f i.succ.succ) = X5 at *
      generalize (1 + agrid (Fin.last 511)) * (f (Fin.last 511) + f (Fin.last 510).castSucc) = X6 at *
      generalize Atrap Om0 w0 wa = T at *
      generalize Utils.trapz z f = T' at *
      generalize f 0 + f 1 = S at *
      have hb : X6 + X5 + (1 + 0) * S = 2 * T + 2 * S := by linarith
      have hS : 2 * S ≤ 2 * T * (3.08) := by norm_num at hlow ⊢; linarith
      have hfin := mul_le_mul_of_nonneg_left (show X6 + X5 + (1 + 0) * S ≤ 8.16 * T by rw [hb]; norm_num at hS ⊢; linarith)
        (show 0 ≤ 23.3 * η by positivity)
      have hTη : 0 ≤ η * T := mul_nonneg hη (by norm_num at hlow; linarith)
      rw [abs_le]
      constructor <;> norm_num at * <;> nlinarith
    have w2 := Close.of_small (by rw [hT]; norm_num at hlow; linarith) (by positivity) (by linarith) key
    rw [hT] at w2
    refine (w1.trans w2).mono ?_
    norm_num; linarith
  · exact close_trapezoid ht hsp hy hr

end Dsps.Lemmas
