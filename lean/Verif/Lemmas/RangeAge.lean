import Verif.Lemmas.RangeMass
import Verif.Lemmas.AgeWeights

/-! Stellar age weights on floats with a finite range. -/
namespace Dsps.Lemmas
open XF Range Dsps.Props Dsps.Constants

variable {R : Range} {a b : Ranged R} {y z A B : ℝ} {n m p q : ℕ}

/-! ### logarithms -/

theorem ten_zpow (k : ℤ) : (10:ℝ) ^ ((k : ℤ) : ℝ) = (10:ℝ) ^ k := Real.rpow_intCast 10 k

theorem logb_ge {c x : ℝ} {k : ℤ} (hc : (k : ℝ) = c) (h : (10:ℝ) ^ k ≤ x) : c ≤ Real.logb 10 x := by
  have hx : 0 < x := lt_of_lt_of_le (by positivity) h
  rw [Real.le_logb_iff_rpow_le (by norm_num) hx, ← hc, ten_zpow]; exact h
theorem logb_le {c x : ℝ} {k : ℤ} (hx : 0 < x) (hc : (k : ℝ) = c) (h : x ≤ (10:ℝ) ^ k) : Real.logb 10 x ≤ c := by
  rw [Real.logb_le_iff_le_rpow (by norm_num) hx, ← hc, ten_zpow]; exact h

theorem logb_mono10 {x y : ℝ} (hx : 0 < x) (h : x ≤ y) : Real.logb 10 x ≤ Real.logb 10 y := Real.logb_le_logb_of_le (by norm_num) hx h

theorem ln10_lt : Real.log 10 < 2.32 := by
  have := Real.log_two_lt_d9
  have e : Real.log 10 ≤ 10 / 3 * Real.log 2 := by
    have h1 : Real.log 1000 ≤ Real.log 1024 := Real.log_le_log (by norm_num) (by norm_num)
    rw [show (1000:ℝ) = 10 ^ 3 by norm_num, show (1024:ℝ) = 2 ^ 10 by norm_num, Real.log_pow, Real.log_pow] at h1
    push_cast at h1; linarith
  norm_num at this ⊢; linarith

/-- numbers below 101 that differ have different logarithms -/
theorem logb_gap {x y δ : ℝ} (hx : 0 < x) (h : x + δ ≤ y) (hy : y ≤ 101) (hδ : 0 ≤ δ) : δ / 250 ≤ Real.logb 10 y - Real.logb 10 x := by
  have hy0 : 0 < y := by linarith
  rw [← Real.logb_div hy0.ne' hx.ne', Real.logb, div_le_div_iff₀ (by norm_num) (Real.log_pos (by norm_num))]
  have h10 := ln10_lt
  have h2 : 1 - (y / x)⁻¹ ≤ Real.log (y / x) := Real.one_sub_inv_le_log_of_pos (by positivity)
  rw [inv_div] at h2
  have h3 : δ / 101 ≤ 1 - x / y := by
    rw [show (1:ℝ) - x / y = (y - x) / y by field_simp]
    exact div_le_div₀ (by linarith) (by linarith) hy0 hy
  have h4 : δ * Real.log 10 ≤ δ * 2.32 := mul_le_mul_of_nonneg_left h10.le hδ
  linarith

/-- a small change of the exponent -/
theorem ten_near {x δ : ℝ} (hx : |x| ≤ δ) (hδ : δ ≤ 0.1) : |(10:ℝ) ^ x - 1| ≤ 5 * δ := by
  have h10 := ln10_lt
  have h0 := Real.log_pos (show (1:ℝ) < 10 by norm_num)
  have hm : |Real.log 10 * x| ≤ 2.32 * δ := by rw [abs_mul, abs_of_pos h0]; exact mul_le_mul h10.le hx (abs_nonneg _) (by norm_num)
  rw [Real.rpow_def_of_pos (by norm_num)]
  refine (Real.abs_exp_sub_one_le (hm.trans (by linarith))).trans ?_
  have := abs_nonneg x
  linarith

/-- ten to the flushed logarithm -/
theorem ten_fl (hR : Wide R) {M : ℝ} (hM : 0 < M) : |(10:ℝ) ^ fl R (Real.logb 10 M) - M| ≤ 1e-30 := by
  unfold fl
  split_ifs with h
  · have := ten_near (h.le.trans hR.tiny) (by norm_num)
    rw [Real.rpow_logb (by norm_num) (by norm_num) hM] at this
    rw [Real.rpow_zero, abs_sub_comm]
    exact this.trans (by norm_num)
  · rw [Real.rpow_logb (by norm_num) (by norm_num) hM, sub_self, abs_zero]; norm_num

/-! ### the tables -/

section
variable {t sfr : Fin (n + 2) → ℝ} {s0 : ℝ}

/-- the tabulated logarithms of the times and of the masses -/
noncomputable def lgtF (R : Range) (t : Fin (n + 2) → ℝ) : Fin (n + 2) → ℝ := fun i => fl R (Real.logb 10 (t i))
noncomputable def lgmF (R : Range) (t sfr : Fin (n + 2) → ℝ) (s0 : ℝ) : Fin (n + 2) → ℝ := fun i => fl R (Real.logb 10 (massTable t sfr s0 i))

theorem lgt_bounds {x : ℝ} (h0 : 1e-3 ≤ x) (h1 : x ≤ 1000) : |Real.logb 10 x| ≤ 3 := by
  rw [abs_le]
  refine ⟨logb_ge (k := -3) (by norm_num) (by norm_num at h0 ⊢; linarith), logb_le (k := 3) (by linarith) (by norm_num) (by norm_num at h1 ⊢; linarith)⟩

theorem is_lgt (hR : Wide R) {x : ℝ} (h0 : 1e-3 ≤ x) (h1 : x ≤ 1000) : Is (Flt.log10 (Flt.lit x) : Ranged R) (fl R (Real.logb 10 x)) := by
  have hM := hR.max
  exact (hR.lit (y := x) (by linarith) (by linarith)).log10F (by linarith) ((lgt_bounds h0 h1).trans (by linarith))

theorem lgt_cells [Jnp.Dtype] (hR : Wide R) (heps : Jnp.Dtype.interpEps ≤ 1e-6) (H : OrdinaryHistory t sfr) : Cells R (lgtF R t) := by
  have ht := hR.tiny
  have hpos : ∀ i, 0 < t i := fun i => by linarith [H.lo i]
  refine ⟨fun i j hij => fl_mono (logb_mono10 (hpos i) (H.strict.monotone hij)), fun i => ?_⟩
  have h1 := logb_gap (hpos i.castSucc) (H.step i) (by linarith [H.hi i.succ]) (by norm_num)
  have h2 := fl_ge (R := R) (Real.logb 10 (t i.succ))
  have h3 := fl_le' (R := R) (Real.logb 10 (t i.castSucc))
  have h4 : 2e-6 ≤ lgtF R t i.succ - lgtF R t i.castSucc := by
    unfold lgtF; norm_num at *; linarith
  constructor <;> linarith

theorem lgm_bounds (hR : Wide R) (H : OrdinaryHistory t sfr) (h0 : 1e-14 ≤ s0) (h1 : s0 ≤ 1e8) (i : Fin (n + 2)) :
    |Real.logb 10 (massTable t sfr s0 i)| ≤ 19 ∧ 0 < massTable t sfr s0 i := by
  obtain ⟨-, hl, hu⟩ := (is_masses hR H h0 h1).1 i
  refine ⟨?_, by linarith⟩
  rw [abs_le]
  refine ⟨?_, logb_le (k := 19) (by linarith) (by norm_num) (by norm_num at hu ⊢; linarith)⟩
  have := logb_ge (c := -8) (k := -8) (by norm_num) (x := massTable t sfr s0 i) (by norm_num at hl ⊢; linarith)
  linarith

theorem is_lgm (hR : Wide R) (H : OrdinaryHistory t sfr) (h0 : 1e-14 ≤ s0) (h1 : s0 ≤ 1e8) (i : Fin (n + 2)) :
    Is (Gen.calc_logsm_table_from_sfh_table (fun j => (Flt.lit (t j) : Ranged R)) (fun j => Flt.lit (sfr j)) (Flt.lit s0) i) (lgmF R t sfr s0 i) := by
  have hM := hR.max
  obtain ⟨hb, hp⟩ := lgm_bounds hR H h0 h1 i
  exact ((is_masses hR H h0 h1).1 i).1.log10F hp (hb.trans (by linarith))

theorem lgm_mono (hR : Wide R) (H : OrdinaryHistory t sfr) (h0 : 1e-14 ≤ s0) (h1 : s0 ≤ 1e8) : Monotone (lgmF R t sfr s0) := fun i j hij =>
  fl_mono (logb_mono10 (lgm_bounds hR H h0 h1 i).2 ((Fin.monotone_iff_le_succ (f := massTable t sfr s0)).2
    (fun i => by linarith [(is_masses hR H h0 h1).2 i]) hij))

theorem lgm_abs (hR : Wide R) (H : OrdinaryHistory t sfr) (h0 : 1e-14 ≤ s0) (h1 : s0 ≤ 1e8) (i : Fin (n + 2)) : |lgmF R t sfr s0 i| ≤ 19 :=
  (fl_abs _).trans (lgm_bounds hR H h0 h1 i).1

/-- the mass formed by the time with the given logarithm -/
noncomputable def massF [Jnp.Dtype] (R : Range) (t sfr : Fin (n + 2) → ℝ) (s0 : ℝ) (x : ℝ) : ℝ := (10:ℝ) ^ interpF R (lgtF R t) (lgmF R t sfr s0) x

variable [Jnp.Dtype]

theorem lgmass_abs (hR : Wide R) (heps : Jnp.Dtype.interpEps ≤ 1e-6) (H : OrdinaryHistory t sfr) (h0 : 1e-14 ≤ s0) (h1 : s0 ≤ 1e8) (x : ℝ) :
    |interpF R (lgtF R t) (lgmF R t sfr s0) x| ≤ 19 := by
  have hb := interpF_bounds (lgt_cells hR heps H) (lgm_mono hR H h0 h1) (fun j => (is_lgm hR H h0 h1 j).fl_eq) x
  have l0 := abs_le.1 (lgm_abs hR H h0 h1 0)
  have l1 := abs_le.1 (lgm_abs hR H h0 h1 (Fin.last (n + 1)))
  exact abs_le.2 ⟨l0.1.trans hb.1, hb.2.trans l1.2⟩

theorem massF_bounds (hR : Wide R) (heps : Jnp.Dtype.interpEps ≤ 1e-6) (H : OrdinaryHistory t sfr) (h0 : 1e-14 ≤ s0) (h1 : s0 ≤ 1e8) (x : ℝ) :
    1e-19 ≤ massF R t sfr s0 x ∧ massF R t sfr s0 x ≤ 1e19 := by
  obtain ⟨l, u⟩ := abs_le.1 (lgmass_abs hR heps H h0 h1 x)
  unfold massF
  constructor
  · refine le_trans (b := (10:ℝ) ^ ((-19 : ℤ) : ℝ)) (by rw [ten_zpow]; norm_num) (Real.rpow_le_rpow_of_exponent_le (by norm_num) (by push_cast; exact l))
  · refine le_trans (b := (10:ℝ) ^ ((19 : ℤ) : ℝ)) (Real.rpow_le_rpow_of_exponent_le (by norm_num) (by push_cast; exact u)) (by rw [ten_zpow]; norm_num)

theorem is_massF (hR : Wide R) (heps : Jnp.Dtype.interpEps ≤ 1e-6) (H : OrdinaryHistory t sfr) (h0 : 1e-14 ≤ s0) (h1 : s0 ≤ 1e8) {x' : Ranged R} {x : ℝ} (hx : Is x' x) :
    Is (Flt.exp10 (Gen.interp x' (fun i => Flt.log10 (Flt.lit (t i))) (Gen.calc_logsm_table_from_sfh_table (fun j => (Flt.lit (t j) : Ranged R)) (fun j => Flt.lit (sfr j)) (Flt.lit s0))))
      (massF R t sfr s0 x) := by
  have hM := hR.max
  have hlt : ∀ i, |lgtF R t i| ≤ 3 := fun i => (fl_abs _).trans (lgt_bounds (by linarith [H.lo i]) (by linarith [H.hi i]))
  have hi := is_interp (lgt_cells hR heps H) (xp := fun i => Flt.log10 (Flt.lit (t i))) (fun j => is_lgt hR (by linarith [H.lo j]) (by linarith [H.hi j]))
    (fun j => is_lgm hR H h0 h1 j) (lgm_mono hR H h0 h1)
    (by linarith [(abs_le.1 (hlt 0)).1, (abs_le.1 (hlt (Fin.last (n + 1)))).2])
    (by linarith [(abs_le.1 (lgm_abs hR H h0 h1 0)).1, (abs_le.1 (lgm_abs hR H h0 h1 (Fin.last (n + 1)))).2]) hx
  have hb := massF_bounds hR heps H h0 h1 x
  have := hi.exp10F (by show massF R t sfr s0 x ≤ _; linarith)
  exact this.congr (fl_in (Or.inr (hR.in_pos (by show _ ≤ massF R t sfr s0 x; linarith) (by show massF R t sfr s0 x ≤ _; linarith))))

theorem massF_mono (hR : Wide R) (heps : Jnp.Dtype.interpEps ≤ 1e-6) (H : OrdinaryHistory t sfr) (h0 : 1e-14 ≤ s0) (h1 : s0 ≤ 1e8) : Monotone (massF R t sfr s0) :=
  fun _ _ h => Real.rpow_le_rpow_of_exponent_le (by norm_num)
    (interpF_mono (lgt_cells hR heps H) (lgm_mono hR H h0 h1) (fun j => (is_lgm hR H h0 h1 j).fl_eq) h)

theorem massF_ge (hR : Wide R) (heps : Jnp.Dtype.interpEps ≤ 1e-6) (H : OrdinaryHistory t sfr) (h0 : 1e-14 ≤ s0) (h1 : s0 ≤ 1e8) {x : ℝ} {j : Fin (n + 2)}
    (h : lgtF R t j < x) : massTable t sfr s0 j - 1e-30 ≤ massF R t sfr s0 x := by
  have := Real.rpow_le_rpow_of_exponent_le (show (1:ℝ) ≤ 10 by norm_num)
    (interpF_ge (lgt_cells hR heps H) (lgm_mono hR H h0 h1) (fun j => (is_lgm hR H h0 h1 j).fl_eq) h)
  have h2 := (abs_le.1 (ten_fl hR (lgm_bounds hR H h0 h1 j).2)).1
  unfold massF lgmF at *
  linarith

theorem massF_le (hR : Wide R) (heps : Jnp.Dtype.interpEps ≤ 1e-6) (H : OrdinaryHistory t sfr) (h0 : 1e-14 ≤ s0) (h1 : s0 ≤ 1e8) {x : ℝ} {j : Fin (n + 2)}
    (h : x < lgtF R t j) : massF R t sfr s0 x ≤ massTable t sfr s0 j + 1e-30 := by
  have := Real.rpow_le_rpow_of_exponent_le (show (1:ℝ) ≤ 10 by norm_num)
    (interpF_le (lgt_cells hR heps H) (lgm_mono hR H h0 h1) (fun j => (is_lgm hR H h0 h1 j).fl_eq) h)
  have h2 := (abs_le.1 (ten_fl hR (lgm_bounds hR H h0 h1 j).2)).2
  unfold massF lgmF at *
  linarith

theorem massF_le_last (hR : Wide R) (heps : Jnp.Dtype.interpEps ≤ 1e-6) (H : OrdinaryHistory t sfr) (h0 : 1e-14 ≤ s0) (h1 : s0 ≤ 1e8) (x : ℝ) :
    massF R t sfr s0 x ≤ massTable t sfr s0 (Fin.last (n + 1)) + 1e-30 := by
  have := Real.rpow_le_rpow_of_exponent_le (show (1:ℝ) ≤ 10 by norm_num)
    (interpF_bounds (lgt_cells hR heps H) (lgm_mono hR H h0 h1) (fun j => (is_lgm hR H h0 h1 j).fl_eq) x).2
  have h2 := (abs_le.1 (ten_fl hR (lgm_bounds hR H h0 h1 (Fin.last (n + 1))).2)).2
  unfold massF lgmF at *
  linarith

end

/-! ### birth times -/

/-- the logarithm of the birth time of stars of the given age -/
noncomputable def birthF (R : Range) (t_obs e : ℝ) : ℝ := fl R (Real.logb 10 (max 0.001 (fl R (t_obs - (10:ℝ) ^ e))))

theorem birth_arg {t_obs : ℝ} (h1 : t_obs ≤ 100) (e : ℝ) : 0.001 ≤ max 0.001 (fl R (t_obs - (10:ℝ) ^ e)) ∧ max 0.001 (fl R (t_obs - (10:ℝ) ^ e)) ≤ 101 := by
  refine ⟨le_max_left _ _, max_le (by norm_num) ?_⟩
  have h := fl_le' (R := R) (t_obs - (10:ℝ) ^ e)
  have := R.tiny_le
  have : (0:ℝ) < (10:ℝ) ^ e := by positivity
  linarith

theorem is_birthF (hR : Wide R) {t_obs : ℝ} (h0 : 0.01 ≤ t_obs) (h1 : t_obs ≤ 100) {e' : Ranged R} {e : ℝ} (he : Is e' e) (hb : |e| ≤ 30) :
    Is (Gen.get_lgt_birth (Flt.lit t_obs) e') (birthF R t_obs e) := by
  have hM := hR.max
  obtain ⟨l, u⟩ := abs_le.1 hb
  have p0 : (1e-30:ℝ) ≤ (10:ℝ) ^ e := by
    refine le_trans (b := (10:ℝ) ^ ((-30 : ℤ) : ℝ)) (by rw [ten_zpow]; norm_num) (Real.rpow_le_rpow_of_exponent_le (by norm_num) (by push_cast; exact l))
  have p1 : (10:ℝ) ^ e ≤ 1e30 := by
    refine le_trans (b := (10:ℝ) ^ ((30 : ℤ) : ℝ)) (Real.rpow_le_rpow_of_exponent_le (by norm_num) (by push_cast; exact u)) (by rw [ten_zpow]; norm_num)
  have e1 : Is (Flt.exp10 e') ((10:ℝ) ^ e) := (he.exp10F (by linarith)).congr (fl_in (Or.inr (hR.in_pos (by linarith) (by linarith))))
  have e2 := (hR.lit (y := t_obs) (by linarith) (by linarith)).subF e1 (by rw [abs_le]; constructor <;> linarith)
  have lm : Is (Flt.lit T_BIRTH_MIN : Ranged R) 0.001 := hR.lit (by norm_num [T_BIRTH_MIN]) (by norm_num [T_BIRTH_MIN])
  have e3 : Is (Flt.sel (Gen.lt (Flt.lit t_obs - Flt.exp10 e') (Flt.lit T_BIRTH_MIN)) (Flt.lit T_BIRTH_MIN) (Flt.lit t_obs - Flt.exp10 e'))
      (max 0.001 (fl R (t_obs - (10:ℝ) ^ e))) := by
    refine (is_sel (lt_iffF e2 lm) (fun _ => lm) (fun _ => e2)).congr ?_
    split_ifs with h
    · rw [max_eq_left h.le]
    · rw [max_eq_right (not_lt.1 h)]
  have hba := birth_arg (R := R) h1 e
  exact e3.log10F (by linarith [hba.1]) ((lgt_bounds (by linarith [hba.1]) (by linarith [hba.2])).trans (by linarith))

theorem birthF_anti {t_obs e e' : ℝ} (h : e ≤ e') : birthF R t_obs e' ≤ birthF R t_obs e := by
  unfold birthF
  refine fl_mono (logb_mono10 (lt_of_lt_of_le (by norm_num) (le_max_left _ _)) (max_le_max le_rfl (fl_mono ?_)))
  have := Real.rpow_le_rpow_of_exponent_le (show (1:ℝ) ≤ 10 by norm_num) h
  linarith

/-- logarithms of different times differ after flushing -/
theorem fl_logb_lt (hR : Wide R) {x y : ℝ} (hx : 0 < x) (h : x + 1e-7 ≤ y) (hy : y ≤ 101) : fl R (Real.logb 10 x) < fl R (Real.logb 10 y) := by
  have ht := hR.tiny
  have h1 := logb_gap hx h hy (by norm_num)
  have h2 := fl_ge (R := R) (Real.logb 10 y)
  have h3 := fl_le' (R := R) (Real.logb 10 x)
  norm_num at *; linarith

/-- a perturbed age -/
theorem ten_pert {v E : ℝ} (h : |v - E| ≤ 1e-30) (hE : |E| ≤ 20) : |(10:ℝ) ^ v - (10:ℝ) ^ E| ≤ 1e-8 := by
  have h1 := ten_near h (by norm_num)
  have hu : (10:ℝ) ^ E ≤ 1e20 := by
    refine le_trans (b := (10:ℝ) ^ ((20 : ℤ) : ℝ)) (Real.rpow_le_rpow_of_exponent_le (by norm_num) (by push_cast; exact (abs_le.1 hE).2)) (by rw [ten_zpow]; norm_num)
  have hp : (0:ℝ) < (10:ℝ) ^ E := by positivity
  have e : (10:ℝ) ^ v - (10:ℝ) ^ E = (10:ℝ) ^ E * ((10:ℝ) ^ (v - E) - 1) := by
    rw [mul_sub, ← Real.rpow_add (by norm_num)]; simp
  rw [e, abs_mul, abs_of_pos hp]
  calc (10:ℝ) ^ E * |(10:ℝ) ^ (v - E) - 1| ≤ 1e20 * (5 * 1e-30) := mul_le_mul hu h1 (abs_nonneg _) (by norm_num)
    _ ≤ _ := by norm_num

end Dsps.Lemmas
