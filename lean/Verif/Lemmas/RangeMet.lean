import Verif.Lemmas.RangeWeights
import Verif.Lemmas.Triweight

/-! Metallicity weights on floats with a finite range. -/
namespace Dsps.Lemmas
open XF Range Dsps.Props Dsps.Constants

variable {R : Range} {a b : Ranged R} {y z A B : ℝ} {n m k p q P : ℕ}

theorem Nr.mul (hR : Wide R) (ha : Nr p A a y) (hb : Nr q B b z) (hp : p ≤ 100000) (hq : q ≤ 100000) (hA : A ≤ 1e6) (hB : B ≤ 1e6)
    (hP : (A + 1) * q + B * p + 1 ≤ P) : Nr P (A * B) (a * b) (y * z) := by
  obtain ⟨v, h1, h2, h3⟩ := ha
  obtain ⟨w, k1, k2, k3⟩ := hb
  have hM := hR.max
  have ht := R.tiny_pos
  have hp' := tiny_mul hR (p := p) (by omega)
  have hq' := tiny_mul hR (p := q) (by omega)
  have hv : |v| ≤ A + 1 := by
    have := abs_sub_abs_le_abs_sub v y
    norm_num at *; linarith
  have hw : |w| ≤ B + 1 := by
    have := abs_sub_abs_le_abs_sub w z
    norm_num at *; linarith
  have hA0 : 0 ≤ A := (abs_nonneg _).trans h3
  have hB0 : 0 ≤ B := (abs_nonneg _).trans k3
  have e : |v * w - y * z| ≤ (A + 1) * (q * R.tiny) + B * (p * R.tiny) := by
    rw [show v * w - y * z = v * (w - z) + (v - y) * z by ring]
    refine (abs_add_le _ _).trans (add_le_add ?_ ?_)
    · rw [abs_mul]; exact mul_le_mul hv k2 (abs_nonneg _) (by linarith)
    · rw [abs_mul, mul_comm]; exact mul_le_mul k3 h2 (abs_nonneg _) hB0
  have hmax : |v * w| ≤ R.max := by
    rw [abs_mul]
    refine (mul_le_mul hv hw (abs_nonneg _) (by linarith)).trans (le_trans (b := (2e6:ℝ) * 2e6) ?_ (by linarith))
    exact mul_le_mul (by linarith) (by linarith) (by linarith) (by norm_num)
  refine ⟨_, h1.mulF k1 hmax, ?_, ?_⟩
  · have h := abs_sub_le (fl R (v * w)) (v * w) (y * z)
    have h' := fl_near (R := R) (v * w)
    have := mul_le_mul_of_nonneg_right hP ht.le
    nlinarith
  · rw [abs_mul]; exact mul_le_mul h3 k3 (abs_nonneg _) hA0

/-- division by a constant that is at least one -/
theorem Nr.div_const (hR : Wide R) (ha : Nr p A a y) (hb : Is b z) (hz : 1 ≤ z) : Nr (p + 1) A (a / b) (y / z) := by
  obtain ⟨v, h1, h2, h3⟩ := ha
  have hz0 : 0 < z := by linarith
  have hv := h1.abs_le
  have hdiv : ∀ u : ℝ, |u / z| ≤ |u| := fun u => by rw [abs_div, abs_of_pos hz0]; exact div_le_self (abs_nonneg _) hz
  refine ⟨_, h1.divF hb hz0.ne' ((hdiv v).trans hv), ?_, (hdiv y).trans h3⟩
  have e := hdiv (v - y)
  rw [sub_div] at e
  have := abs_sub_le (fl R (v / z)) (v / z) (y / z)
  have h := fl_near (R := R) (v / z)
  push_cast; linarith

theorem Is.nr (h : Is a y) (hy : |y| ≤ B) : Nr 0 B a y := ⟨y, h, by simp, hy⟩

section
variable {z' : Ranged R}

/-- the polynomial of the kernel -/
theorem nr_poly (hR : Wide R) (hz : Is z' z) (h3 : |z| ≤ 3) :
    Nr 20000 20000 (-(Flt.lit 5) * Flt.ipow z' 7 / Flt.lit 69984 + Flt.lit 7 * Flt.ipow z' 5 / Flt.lit 2592 - Flt.lit 35 * Flt.ipow z' 3 / Flt.lit 864 + Flt.lit 35 * z' / Flt.lit 96
      + Flt.lit 1 / Flt.lit 2) (twP z) := by
  have c : ∀ r : ℝ, 1 ≤ r → r ≤ 1e30 → Is (Flt.lit r : Ranged R) r := fun r h1 h2 => hR.lit (by linarith) (by linarith)
  have p1 : Nr 0 3 z' z := hz.nr h3
  have p2 : Nr 1 9 (z' * z') (z * z) := (p1.mul hR p1 (P := 1) (by norm_num) (by norm_num) (by norm_num) (by norm_num) (by norm_num)).mono le_rfl (by norm_num)
  have p3 : Nr 4 27 (z' * z' * z') (z * z * z) := (p2.mul hR p1 (P := 4) (by norm_num) (by norm_num) (by norm_num) (by norm_num) (by norm_num)).mono le_rfl (by norm_num)
  have p4 : Nr 13 81 (z' * z' * z' * z') (z * z * z * z) := (p3.mul hR p1 (P := 13) (by norm_num) (by norm_num) (by norm_num) (by norm_num) (by norm_num)).mono le_rfl (by norm_num)
  have p5 : Nr 40 243 (z' * z' * z' * z' * z') (z * z * z * z * z) := (p4.mul hR p1 (P := 40) (by norm_num) (by norm_num) (by norm_num) (by norm_num) (by norm_num)).mono le_rfl (by norm_num)
  have p6 : Nr 121 729 (z' * z' * z' * z' * z' * z') (z * z * z * z * z * z) := (p5.mul hR p1 (P := 121) (by norm_num) (by norm_num) (by norm_num) (by norm_num) (by norm_num)).mono le_rfl (by norm_num)
  have p7 : Nr 364 2187 (z' * z' * z' * z' * z' * z' * z') (z * z * z * z * z * z * z) := (p6.mul hR p1 (P := 364) (by norm_num) (by norm_num) (by norm_num) (by norm_num) (by norm_num)).mono le_rfl (by norm_num)
  have l5 : Nr 0 5 (-(Flt.lit 5) : Ranged R) (-5) := (c 5 (by norm_num) (by norm_num)).neg.nr (by norm_num)
  have l7 : Nr 0 7 (Flt.lit 7 : Ranged R) 7 := (c 7 (by norm_num) (by norm_num)).nr (by norm_num)
  have l35 : Nr 0 35 (Flt.lit 35 : Ranged R) 35 := (c 35 (by norm_num) (by norm_num)).nr (by norm_num)
  have l1 : Nr 0 1 (Flt.lit 1 : Ranged R) 1 := (c 1 (by norm_num) (by norm_num)).nr (by norm_num)
  have t1 := (l5.mul hR p7 (P := 2185) (by norm_num) (by norm_num) (by norm_num) (by norm_num) (by norm_num)).div_const hR (c 69984 (by norm_num) (by norm_num)) (by norm_num)
  have t2 := (l7.mul hR p5 (P := 321) (by norm_num) (by norm_num) (by norm_num) (by norm_num) (by norm_num)).div_const hR (c 2592 (by norm_num) (by norm_num)) (by norm_num)
  have t3 := (l35.mul hR p3 (P := 145) (by norm_num) (by norm_num) (by norm_num) (by norm_num) (by norm_num)).div_const hR (c 864 (by norm_num) (by norm_num)) (by norm_num)
  have t4 := (l35.mul hR p1 (P := 1) (by norm_num) (by norm_num) (by norm_num) (by norm_num) (by norm_num)).div_const hR (c 96 (by norm_num) (by norm_num)) (by norm_num)
  have t5 := l1.div_const hR (c 2 (by norm_num) (by norm_num)) (by norm_num)
  have h := (((t1.add hR t2 (by norm_num) (by norm_num) (by norm_num) (by norm_num)).sub hR t3 (by norm_num) (by norm_num) (by norm_num) (by norm_num)).add hR t4
    (by norm_num) (by norm_num) (by norm_num) (by norm_num)).add hR t5 (by norm_num) (by norm_num) (by norm_num) (by norm_num)
  have e : -5 * (z * z * z * z * z * z * z) / 69984 + 7 * (z * z * z * z * z) / 2592 - 35 * (z * z * z) / 864 + 35 * z / 96 + 1 / 2 = twP z := by
    unfold twP; ring
  rw [e] at h
  exact h.mono (by norm_num) (by norm_num)

/-- the kernel -/
theorem is_kern (hR : Wide R) {x m h : Ranged R} {X M H : ℝ} (hx : Is x X) (hm : Is m M) (hh : Is h H) (hX : |X - M| ≤ 1e10) (hH : 1e-20 ≤ H) :
    ∃ v, Is (Gen.tw_cuml_kern x m h) v ∧ |v - twC (fl R (fl R (X - M) / H))| ≤ 20000 * R.tiny ∧
      (3 < fl R (fl R (X - M) / H) → v = 1) ∧ (fl R (fl R (X - M) / H) < -3 → v = 0) := by
  have hM := hR.max
  have ht := R.tiny_pos
  have hH0 : 0 < H := by linarith
  have e1 := hx.subF hm (hX.trans (by linarith))
  have e2 := e1.divF hh hH0.ne' (by
    rw [abs_div, abs_of_pos hH0]
    refine (div_le_div₀ (by norm_num) ((fl_abs _).trans hX) (by norm_num) hH).trans (le_trans (by norm_num) hM))
  set Z := fl R (fl R (X - M) / H) with hZ
  have l3 : Is (Flt.lit 3 : Ranged R) 3 := hR.lit (by norm_num) (by norm_num)
  have l0 : Is (Flt.lit 0 : Ranged R) 0 := is_lit (Or.inl rfl)
  have l1 : Is (Flt.lit 1 : Ranged R) 1 := hR.lit (by norm_num) (by norm_num)
  have hlt1 := lt_iffF l3 e2
  have hlt2 := lt_iffF e2 l3.neg
  unfold Gen.tw_cuml_kern
  have hs1 : ∀ (c : Prop) (u v : Ranged R), c → Flt.sel c u v = u := fun c u v h => if_pos h
  have hs0 : ∀ (c : Prop) (u v : Ranged R), ¬ c → Flt.sel c u v = v := fun c u v h => if_neg h
  by_cases h1 : 3 < Z
  · refine ⟨1, ?_, ?_, fun _ => rfl, fun h => by linarith⟩
    · simp only [hs1 _ _ _ (hlt1.2 h1)]; exact l1
    · rw [twC_of_ge h1.le, sub_self, abs_zero]; positivity
  by_cases h2 : Z < -3
  · refine ⟨0, ?_, ?_, fun h => absurd h h1, fun _ => rfl⟩
    · simp only [hs0 _ _ _ (fun h => h1 (hlt1.1 h)), hs1 _ _ _ (hlt2.2 h2)]; exact l0
    · rw [twC_of_le h2.le, sub_self, abs_zero]; positivity
  · have hb : |Z| ≤ 3 := abs_le.2 ⟨not_lt.1 h2, not_lt.1 h1⟩
    obtain ⟨v, hv, hd, -⟩ := nr_poly hR e2 hb
    refine ⟨v, ?_, ?_, fun h => absurd h h1, fun h => absurd h h2⟩
    · simp only [hs0 _ _ _ (fun h => h1 (hlt1.1 h)), hs0 _ _ _ (fun h => h2 (hlt2.1 h))]; exact hv
    · have e : twC Z = twP Z := by unfold twC; rw [if_neg h1, if_neg h2]
      rw [e]; exact_mod_cast hd

end

/-- weights of one metallicity -/
theorem range_met_point (hR : Wide R) (hk : k + 1 ≤ 1000) {x h : Ranged R} {X H : ℝ} (hx : Is x X) (hh : Is h H) {es : Fin (k + 2) → Ranged R} {e : Fin (k + 2) → ℝ}
    (he : ∀ i, Is (es i) (e i)) (hmono : ∀ i : Fin (k + 1), e i.castSucc ≤ e i.succ) (h0 : |e 0 - -10| ≤ 1e-30) (h1 : |e (Fin.last (k + 1)) - 10| ≤ 1e-30)
    (hH : 1e-20 ≤ H) (hlo : -9.99 ≤ X - 3 * H) (hhi : X + 3 * H ≤ 9.99) :
    ∃ v : Fin (k + 1) → ℝ, (∀ i, Is (Gen.get_lgmet_weights_singlegal x h es i) (v i)) ∧ (∀ i, -1e-33 ≤ v i) ∧ (∀ i, v i ≤ 2) ∧ |∑ i, v i - 1| ≤ 1e-24 := by
  have hM := hR.max
  have ht := R.tiny_pos
  have htl := hR.tiny
  have hem : Monotone e := Fin.monotone_iff_le_succ.2 hmono
  have a0 := abs_le.1 h0
  have a1 := abs_le.1 h1
  have heb : ∀ i, |X - e i| ≤ 100 := fun i => by
    have b0 := hem (Fin.zero_le i)
    have b1 := hem (Fin.le_last i)
    rw [abs_le]; norm_num at *; constructor <;> linarith
  choose v hv hd hv1 hv0 using fun i => is_kern hR hx (he i) hh ((heb i).trans (by norm_num)) hH
  have hH0 : 0 < H := by linarith
  -- at the ends
  have z0 : 3 < fl R (fl R (X - e 0) / H) := by
    have b1 : 3 * H + 0.009 ≤ fl R (X - e 0) := by
      have := fl_ge (R := R) (X - e 0)
      norm_num at *; linarith
    have b2 : 3 + 0.001 ≤ fl R (X - e 0) / H := by
      rw [le_div_iff₀ hH0]
      have : H ≤ 4 := by linarith
      linarith
    have := fl_ge (R := R) (fl R (X - e 0) / H)
    linarith
  have z1 : fl R (fl R (X - e (Fin.last (k + 1))) / H) < -3 := by
    have b1 : fl R (X - e (Fin.last (k + 1))) ≤ -(3 * H + 0.009) := by
      have := fl_le' (R := R) (X - e (Fin.last (k + 1)))
      norm_num at *; linarith
    have b2 : fl R (X - e (Fin.last (k + 1))) / H ≤ -(3 + 0.001) := by
      rw [div_le_iff₀ hH0]
      have : H ≤ 4 := by linarith
      linarith
    have := fl_le' (R := R) (fl R (X - e (Fin.last (k + 1))) / H)
    linarith
  have v0 := hv1 0 z0
  have vl := hv0 (Fin.last (k + 1)) z1
  have hvb : ∀ i, |v i| ≤ 1.5 := fun i => by
    have c0 := twC_nonneg (fl R (fl R (X - e i) / H))
    have c1 := twC_le_one (fl R (fl R (X - e i) / H))
    have c2 := abs_le.1 (hd i)
    rw [abs_le]; constructor <;> linarith
  -- the histogram
  have hw : ∀ i : Fin (k + 1), Is (Gen.triweighted_histogram x h es i) (fl R (v i.castSucc - v i.succ)) := fun i =>
    (hv _).subF (hv _) (by
      have := abs_le.1 (hvb i.castSucc); have := abs_le.1 (hvb i.succ)
      rw [abs_le]; constructor <;> linarith)
  have hw0 : ∀ i : Fin (k + 1), -(40001 * R.tiny) ≤ fl R (v i.castSucc - v i.succ) := fun i => by
    have hz : fl R (fl R (X - e i.succ) / H) ≤ fl R (fl R (X - e i.castSucc) / H) :=
      fl_mono (div_le_div_of_nonneg_right (fl_mono (by linarith [hmono i])) hH0.le)
    have c := twC_mono hz
    have c0 := abs_le.1 (hd i.castSucc)
    have c1 := abs_le.1 (hd i.succ)
    have := fl_ge (R := R) (v i.castSucc - v i.succ)
    linarith
  have hwb : ∀ i : Fin (k + 1), |fl R (v i.castSucc - v i.succ)| ≤ 3 := fun i => by
    refine (fl_abs _).trans ((abs_sub _ _).trans ?_)
    linarith [hvb i.castSucc, hvb i.succ]
  have htel : ∑ i : Fin (k + 1), (v i.castSucc - v i.succ) = 1 := by rw [sum_telescope' v, v0, vl]; norm_num
  have hcard : ((k + 1 : ℕ) : ℝ) * R.tiny ≤ 1.2e-35 := by
    have h1 : ((k + 1 : ℕ) : ℝ) ≤ 1000 := by exact_mod_cast hk
    calc ((k + 1 : ℕ) : ℝ) * R.tiny ≤ 1000 * 1.2e-38 := mul_le_mul h1 htl ht.le (by norm_num)
      _ = _ := by norm_num
  have hsum : |∑ i : Fin (k + 1), fl R (v i.castSucc - v i.succ) - 1| ≤ 1.2e-35 := by
    rw [← htel, ← Finset.sum_sub_distrib]
    refine (Finset.abs_sum_le_sum_abs _ _).trans ((Finset.sum_le_sum fun i _ => fl_near (R := R) (v i.castSucc - v i.succ)).trans ?_)
    simpa using hcard
  obtain ⟨S, hS, hSd, -⟩ := is_sum hw (by
    refine (Finset.sum_le_sum fun i _ => hwb i).trans ?_
    have h1 : ((k + 1 : ℕ) : ℝ) ≤ 1000 := by exact_mod_cast hk
    simp only [Finset.sum_const, Finset.card_univ, Fintype.card_fin, nsmul_eq_mul]
    linarith)
  have s1 := abs_le.1 hsum
  have s2 := abs_le.1 (hSd.trans hcard)
  have hS1 : 1 - 1e-30 ≤ S ∧ S ≤ 1 + 1e-30 := by norm_num at *; constructor <;> linarith
  have hSne : ¬ Gen.eqv (Flt.sum (Gen.triweighted_histogram x h es)) (Flt.lit 0) := by
    intro hc
    have := (hS.1.eqv_iff (is_lit (R := R) (y := 0) (Or.inl rfl)).1).1 hc
    norm_num at *; linarith
  have hs0 : ∀ (c : Prop) (u v : Ranged R), ¬ c → Flt.sel c u v = v := fun c u v h => if_neg h
  have hlo' : ¬ Gen.lt x (es 0) := fun hc => by
    have := (lt_iffF hx (he 0)).1 hc
    norm_num at *; linarith
  have hhi' : ¬ Gen.lt (es (Fin.last (k + 1))) x := fun hc => by
    have := (lt_iffF (he _) hx).1 hc
    norm_num at *; linarith
  obtain ⟨w1, w2⟩ := is_normalised hR (by omega) hw hS (by norm_num at *; linarith) (fun i => (hwb i).trans (by norm_num)) (hSd.trans hcard)
  refine ⟨_, fun i => ?_, fun i => ?_, fun i => ?_, w2.trans ?_⟩
  · unfold Gen.get_lgmet_weights_singlegal Gen.fill_empty_weights_singlepoint
    simp only [hs0 _ _ _ hSne, hs0 _ _ _ (fun hc : (_ ∧ _) => hlo' hc.2), hs0 _ _ _ (fun hc : (_ ∧ _) => hhi' hc.2)]
    exact w1 i
  · have hSp : 0 < S := by norm_num at *; linarith
    have : -(80002 * R.tiny) ≤ fl R (v i.castSucc - v i.succ) / S := by
      rw [le_div_iff₀ hSp]
      have := hw0 i
      norm_num at *; nlinarith
    have h2 := fl_ge (R := R) (fl R (v i.castSucc - v i.succ) / S)
    norm_num at *; linarith
  · have hSp : 0 < S := by norm_num at *; linarith
    have hle : fl R (v i.castSucc - v i.succ) ≤ 1.1 := by
      have c0 := twC_nonneg (fl R (fl R (X - e i.succ) / H))
      have c1 := twC_le_one (fl R (fl R (X - e i.castSucc) / H))
      have c2 := abs_le.1 (hd i.castSucc)
      have c3 := abs_le.1 (hd i.succ)
      have := fl_le' (R := R) (v i.castSucc - v i.succ)
      norm_num at *; linarith
    have : fl R (v i.castSucc - v i.succ) / S ≤ 1.5 := by
      rw [div_le_iff₀ hSp]
      norm_num at *; linarith
    have h2 := fl_le' (R := R) (fl R (v i.castSucc - v i.succ) / S)
    norm_num at *; linarith
  · norm_num at hcard ⊢; linarith

/-- **Specification.**  The grids of metallicities considered: at most 1000, bin edges that increase by a millionth from -10 to 10. -/
structure MetGrid (a : Fin (k + 3) → ℝ) : Prop where
  card : k + 3 ≤ 1000
  mid : ∀ i, |a i| ≤ 10
  inc : ∀ i : Fin (k + 3), Utils.get_bin_edges a (-10) 10 i.castSucc + 1e-6 ≤ Utils.get_bin_edges a (-10) 10 i.succ

/-- weights of a lognormal metallicity distribution -/
theorem range_met_weights (hR : Wide R) {mets : Fin (k + 3) → ℝ} (G : MetGrid mets) {x h : Ranged R} {X H : ℝ} (hx : Is x X) (hh : Is h H)
    (hH : 1e-20 ≤ H) (hlo : -9.99 ≤ X - 3 * H) (hhi : X + 3 * H ≤ 9.99) :
    ∃ v : Fin (k + 3) → ℝ, (∀ i, Is (Gen.get_lgmet_weights_singlegal x h (Gen.get_bin_edges (fun j => (Flt.lit (mets j) : Ranged R)) (Flt.lit LGMET_LO) (Flt.lit LGMET_HI)) i) (v i)) ∧
      (∀ i, -1e-33 ≤ v i) ∧ (∀ i, v i ≤ 2) ∧ |∑ i, v i - 1| ≤ 1e-24 := by
  have el : LGMET_LO = -10 := by norm_num [LGMET_LO]
  have eh : LGMET_HI = 10 := by norm_num [LGMET_HI]
  rw [el, eh]
  obtain ⟨e, he, hd, hmono⟩ := edges_anti hR (nr_met_edges hR (fun i => (G.mid i).trans (by norm_num)) (l := -10) (h := 10) (by norm_num) (by norm_num))
  have e0 : Utils.get_bin_edges mets (-10) 10 0 = -10 := by
    unfold Utils.get_bin_edges Jnp.setAt
    rw [Function.update_of_ne (by simp [Fin.ext_iff]), Function.update_self]
  have e1 : Utils.get_bin_edges mets (-10) 10 (Fin.last (k + 3)) = 10 := by
    unfold Utils.get_bin_edges Jnp.setAt
    rw [Function.update_self]
  have d0 := hd 0
  have d1 := hd (Fin.last (k + 3))
  rw [e0] at d0
  rw [e1] at d1
  exact range_met_point hR G.card hx hh he (hmono G.inc) d0 d1 hH hlo hhi

/-! ### metallicity histories -/

theorem fl_neg (y : ℝ) : fl R (-y) = -fl R y := by
  unfold fl
  rw [abs_neg]
  split_ifs <;> simp

section
variable [Jnp.Dtype] {xp fp : Fin (n + 2) → Ranged R} {X F : Fin (n + 2) → ℝ}

/-- within a cell of a table that need not increase -/
theorem cell_any {x x0 x1 f0 f1 : ℝ} (h0 : x0 ≤ x) (h1 : x ≤ x1) (hx : R.tiny ≤ x1 - x0) (e0 : fl R f0 = f0) (e1 : fl R f1 = f1) :
    |fl R (fl R (fl R (x - x0) / (x1 - x0)) * fl R (f1 - f0))| ≤ |f1 - f0| ∧
    min f0 f1 ≤ fl R (f0 + fl R (fl R (fl R (x - x0) / (x1 - x0)) * fl R (f1 - f0))) ∧ fl R (f0 + fl R (fl R (fl R (x - x0) / (x1 - x0)) * fl R (f1 - f0))) ≤ max f0 f1 := by
  have key : |fl R (fl R (fl R (x - x0) / (x1 - x0)) * fl R (f1 - f0))| ≤ |f1 - f0| := by
    obtain ⟨-, ⟨c0, c1⟩, -⟩ := interpF_cell (R := R) h0 h1 hx le_rfl e0 e0
    refine (fl_abs _).trans ?_
    rw [abs_mul, abs_of_nonneg c0]
    exact (mul_le_of_le_one_left (abs_nonneg _) c1).trans (fl_abs _)
  refine ⟨key, ?_⟩
  rcases le_total f0 f1 with h | h
  · rw [min_eq_left h, max_eq_right h]
    exact (interpF_cell (R := R) h0 h1 hx h e0 e1).2.2.2
  · rw [min_eq_right h, max_eq_left h]
    have := (interpF_cell (R := R) h0 h1 hx (neg_le_neg h) (by rw [fl_neg, e0]) (by rw [fl_neg, e1])).2.2.2
    rw [show -f1 - -f0 = -(f1 - f0) by ring, fl_neg, mul_neg, fl_neg, ← neg_add, fl_neg] at this
    constructor <;> linarith [this.1, this.2]

/-- interpolation in a table that need not increase -/
theorem is_interp_any (hX : Cells R X) (hp : ∀ j, Is (xp j) (X j)) (hq : ∀ j, Is (fp j) (F j)) {lo hi : ℝ} (hb : ∀ j, lo ≤ F j ∧ F j ≤ hi)
    (hXm : X (Fin.last (n + 1)) - X 0 ≤ R.max) (hm : |lo| + 2 * |hi| + |lo| ≤ R.max) {x' : Ranged R} {x : ℝ} (hx : Is x' x) :
    ∃ v, Is (Gen.interp x' xp fp) v ∧ lo ≤ v ∧ v ≤ hi := by
  have hf : ∀ j, fl R (F j) = F j := fun j => (hq j).fl_eq
  refine ⟨interpF R X F x, ?_, ?_⟩
  · unfold Gen.interp Gen.interpLR interpF
    have hc : Gen.interpCell xp x' = Jnp.interpCell X x := cell_eq (fun j => (hp j).1) hx.1
    rw [hc]
    set i := Jnp.interpCell X x with hi'
    have htk : ∀ (u : Fin (n + 2) → Ranged R) (k : Fin (n + 2)), Flt.take u k = u k := fun u k => rfl
    simp only [htk]
    refine is_sel (lt_iffF (hp _) hx) (fun _ => hq _) fun h0 => is_sel (lt_iffF hx (hp _)) (fun _ => hq _) fun h1 => ?_
    have hxl : X i.castSucc ≤ x := Jnp.interpCell_left hX.1 (not_lt.1 h1)
    have hxr : x ≤ X i.succ := Jnp.interpCell_right hX.1 (not_lt.1 h0)
    obtain ⟨hr1, hr2⟩ := hX.2 i
    have hpos : 0 < X i.succ - X i.castSucc := R.tiny_pos.trans_le hr2
    have hXc : X i.succ - X i.castSucc ≤ R.max := by
      have := hX.1 (Fin.le_last i.succ); have := hX.1 (Fin.zero_le i.castSucc); linarith
    have b0 := hb i.castSucc
    have b1 := hb i.succ
    have hlo := abs_le.1 (le_refl |lo|)
    have hhi := abs_le.1 (le_refl |hi|)
    have hFc : |F i.succ - F i.castSucc| ≤ |lo| + |hi| := by rw [abs_le]; constructor <;> linarith
    have hF0 : |F i.castSucc| ≤ |lo| + |hi| := by rw [abs_le]; constructor <;> linarith [abs_nonneg lo, abs_nonneg hi]
    have hdx : Is (xp i.succ - xp i.castSucc) (X i.succ - X i.castSucc) :=
      (hp _).sub (hp _) (Or.inr ⟨by rwa [abs_of_pos hpos], by rwa [abs_of_pos hpos]⟩)
    have hdx0 : ¬ XFSed.abs (Flt.value (xp i.succ - xp i.castSucc)) ≤ XF.fin Jnp.Dtype.interpEps := by
      intro h
      have := ((rep_abs hdx.1).le_iff (Rep.fin _)).1 h
      rw [abs_of_pos hpos] at this
      linarith
    have hsel : ∀ (c : Prop) (u v : Ranged R), ¬ c → Flt.sel c u v = v := fun c u v h => if_neg h
    simp only [hsel _ _ _ hdx0]
    obtain ⟨⟨a0, a1⟩, ⟨c0, c1⟩, -⟩ := interpF_cell (R := R) hxl hxr hr2 le_rfl (hf i.castSucc) (hf i.castSucc)
    have hM := R.max_ge
    have e1 : Is (x' - xp i.castSucc) (fl R (x - X i.castSucc)) := hx.subF (hp _) (by rw [abs_of_nonneg (by linarith)]; linarith)
    have e2 := e1.divF hdx hpos.ne' (by
      rw [abs_of_nonneg (div_nonneg a0 hpos.le)]
      refine le_trans ?_ hM
      rw [div_le_one hpos]; exact a1)
    have e3 : Is (fp i.succ - fp i.castSucc) (fl R (F i.succ - F i.castSucc)) := (hq _).subF (hq _) (by linarith [abs_nonneg lo, abs_nonneg hi])
    have g : |fl R (fl R (x - X i.castSucc) / (X i.succ - X i.castSucc)) * fl R (F i.succ - F i.castSucc)| ≤ |F i.succ - F i.castSucc| := by
      rw [abs_mul, abs_of_nonneg c0]
      exact (mul_le_of_le_one_left (abs_nonneg _) c1).trans (fl_abs _)
    have e4 := e2.mulF e3 (by linarith [abs_nonneg lo, abs_nonneg hi])
    refine (hq _).addF e4 ((abs_add_le _ _).trans ?_)
    have := (cell_any (R := R) hxl hxr hr2 (hf i.castSucc) (hf i.succ)).1
    linarith
  · unfold interpF
    split_ifs with h0 h1
    · exact hb _
    · exact hb _
    · have hxl := Jnp.interpCell_left hX.1 (not_lt.1 h1)
      have hxr := Jnp.interpCell_right hX.1 (not_lt.1 h0)
      obtain ⟨-, c1, c2⟩ := cell_any (R := R) hxl hxr (hX.2 _).2 (hf _) (hf _)
      exact ⟨(le_min (hb _).1 (hb _).1).trans c1, c2.trans (max_le (hb _).2 (hb _).2)⟩

/-- **Specification.**  A metallicity distribution inside the outermost edges of the grid of metallicities, not too narrow. -/
structure MetInside (lgmet scatter : ℝ) : Prop where
  width : 1e-6 ≤ scatter
  low : -9.9 ≤ lgmet - 3 * scatter
  high : lgmet + 3 * scatter ≤ 9.9

variable {lgmet scatter t_obs : ℝ} {mets : Fin (k + 3) → ℝ} {t met : Fin (n + 2) → ℝ} {sfr : Fin (n + 2) → ℝ} {ages : Fin (m + 3) → ℝ}

omit [Jnp.Dtype] in
theorem MetInside.bounds (h : MetInside lgmet scatter) : |lgmet| ≤ 10 ∧ scatter ≤ 4 := by
  have := h.width; have := h.low; have := h.high
  constructor
  · rw [abs_le]; constructor <;> linarith
  · linarith

omit [Jnp.Dtype] in
theorem range_lognormal (hR : Wide R) (G : MetGrid mets) (h : MetInside lgmet scatter) :
    ∃ v : Fin (k + 3) → ℝ, (∀ i, Is (Gen.calc_lgmet_weights_from_lognormal_mdf (Flt.lit lgmet) (Flt.lit scatter) (fun j => (Flt.lit (mets j) : Ranged R)) i) (v i)) ∧
      (∀ i, -1e-33 ≤ v i) ∧ (∀ i, v i ≤ 2) ∧ |∑ i, v i - 1| ≤ 1e-24 := by
  have hM := hR.max
  have ht := hR.tiny
  have hw := h.width; have hl := h.low; have hh := h.high
  have hx : Is (Flt.lit lgmet : Ranged R) (fl R lgmet) := is_litF (by linarith [h.bounds.1])
  have a0 := fl_ge (R := R) lgmet
  have a1 := fl_le' (R := R) lgmet
  exact range_met_weights hR G hx (hR.lit (by linarith) (by linarith [h.bounds.2])) (by linarith) (by linarith) (by linarith)

/-- weights of a metallicity history: each age has its share of the whole -/
theorem range_met_table (hR : Wide R) (heps : Jnp.Dtype.interpEps ≤ 1e-6) (H : OrdinaryHistory t sfr) (A : AgeGrid ages) (G : MetGrid mets) (ht0 : 0.01 ≤ t_obs) (ht1 : t_obs ≤ 100)
    (h : ∀ j, MetInside (met j) scatter) :
    ∃ v : Fin (k + 3) → Fin (m + 3) → ℝ, (∀ i j, Is (Gen.calc_lgmet_weights_from_lgmet_table (fun j => (Flt.lit (t j) : Ranged R)) (fun j => Flt.lit (met j)) (Flt.lit scatter)
        (fun j => Flt.lit (mets j)) (fun j => Flt.lit (ages j)) (Flt.lit t_obs) i j) (v i j)) ∧
      (∀ i j, -3e-33 ≤ v i j) ∧ (∀ i j, v i j ≤ 2) ∧ ∀ j, |∑ i, v i j - 1 / ((m + 3 : ℕ) : ℝ)| ≤ 1e-22 := by
  have hM := hR.max
  have ht := hR.tiny
  have htp := R.tiny_pos
  have hw := (h 0).width
  have hs := (h 0).bounds.2
  have hm1 : (1:ℝ) ≤ ((m + 3 : ℕ) : ℝ) := by push_cast; linarith [Nat.cast_nonneg (α := ℝ) m]
  have hm2 : ((m + 3 : ℕ) : ℝ) ≤ 1000 := by exact_mod_cast A.card
  have hmL : Is (Flt.lit ((m + 3 : ℕ) : ℝ) : Ranged R) ((m + 3 : ℕ) : ℝ) := hR.lit (by linarith) (by linarith)
  have hscat : Is (Flt.lit scatter : Ranged R) scatter := hR.lit (by linarith) (by linarith)
  -- the interpolated metallicity
  have hmet : ∀ j : Fin (m + 3), ∃ x, Is (Gen.interp (Gen.get_lgt_birth (Flt.lit t_obs) (Flt.lit (ages j))) (fun i => Flt.log10 (Flt.lit (t i))) (fun i => (Flt.lit (met i) : Ranged R))) x ∧
      -9.9 + 3 * scatter - R.tiny ≤ x ∧ x ≤ 9.9 - 3 * scatter + R.tiny := fun j => by
    have hage : Is (Flt.lit (ages j) : Ranged R) (fl R (ages j)) := is_litF (by linarith [A.mid j])
    have hb := is_birthF hR ht0 ht1 hage ((fl_abs _).trans ((A.mid j).trans (by norm_num)))
    have hc := lgt_cells hR heps H
    refine is_interp_any hc (fun i => is_lgt hR (by linarith [H.lo i]) (by linarith [H.hi i])) (F := fun i => fl R (met i)) (fun i => is_litF (by linarith [(h i).bounds.1])) (fun i => ?_) ?_ ?_ hb
    · have := fl_ge (R := R) (met i); have := fl_le' (R := R) (met i)
      have := (h i).low; have := (h i).high
      constructor <;> linarith
    · have b0 := abs_le.1 (lgt_bounds (x := t 0) (by linarith [H.lo 0]) (by linarith [H.hi 0]))
      have b1 := abs_le.1 (lgt_bounds (x := t (Fin.last (n + 1))) (by linarith [H.lo (Fin.last (n + 1))]) (by linarith [H.hi (Fin.last (n + 1))]))
      have := fl_ge (R := R) (Real.logb 10 (t 0))
      have := fl_le' (R := R) (Real.logb 10 (t (Fin.last (n + 1))))
      unfold lgtF; linarith
    · have c1 : |-9.9 + 3 * scatter - R.tiny| ≤ 100 := by rw [abs_le]; constructor <;> linarith
      have c2 : |9.9 - 3 * scatter + R.tiny| ≤ 100 := by rw [abs_le]; constructor <;> linarith
      linarith
  choose x hx hx0 hx1 using hmet
  choose l hl hl0 hl1 hls using fun j => range_met_weights hR G (hx j) hscat (by linarith) (by linarith [hx0 j]) (by linarith [hx1 j])
  have hd0 : ∀ i j, -1e-33 ≤ l j i / ((m + 3 : ℕ) : ℝ) := fun i j => by
    rw [le_div_iff₀ (by linarith)]
    have := hl0 j i
    norm_num at *; nlinarith
  have hd1 : ∀ i j, l j i / ((m + 3 : ℕ) : ℝ) ≤ 1.9 := fun i j => by
    rw [div_le_iff₀ (by linarith)]
    have := hl1 j i
    have : (3:ℝ) ≤ ((m + 3 : ℕ) : ℝ) := by push_cast; linarith [Nat.cast_nonneg (α := ℝ) m]
    linarith
  refine ⟨fun i j => fl R (l j i / ((m + 3 : ℕ) : ℝ)), fun i j => ?_, fun i j => ?_, fun i j => ?_, fun j => ?_⟩
  · rw [Gen.lgmet_table_apply]
    refine (hl j i).divF hmL (by linarith) (abs_le.2 ⟨?_, ?_⟩)
    · have := hd0 i j
      norm_num at *; linarith
    · have := hd1 i j; linarith
  · have := fl_ge (R := R) (l j i / ((m + 3 : ℕ) : ℝ)); have := hd0 i j
    norm_num at *; linarith
  · have := fl_le' (R := R) (l j i / ((m + 3 : ℕ) : ℝ)); have := hd1 i j
    norm_num at *; linarith
  · have e1 : |∑ i, fl R (l j i / ((m + 3 : ℕ) : ℝ)) - ∑ i, l j i / ((m + 3 : ℕ) : ℝ)| ≤ ((k + 3 : ℕ) : ℝ) * R.tiny := by
      rw [← Finset.sum_sub_distrib]
      refine (Finset.abs_sum_le_sum_abs _ _).trans ((Finset.sum_le_sum fun i _ => fl_near (R := R) (l j i / ((m + 3 : ℕ) : ℝ))).trans ?_)
      simp
    have e2 : ((k + 3 : ℕ) : ℝ) * R.tiny ≤ 1000 * 1.2e-38 := mul_le_mul (by exact_mod_cast G.card) ht htp.le (by norm_num)
    have e3 : |∑ i, l j i / ((m + 3 : ℕ) : ℝ) - 1 / ((m + 3 : ℕ) : ℝ)| ≤ 1e-24 := by
      rw [← Finset.sum_div, ← sub_div, abs_div, abs_of_pos (show (0:ℝ) < ((m + 3 : ℕ) : ℝ) by linarith)]
      exact (div_le_self (abs_nonneg _) hm1).trans (hls j)
    have := abs_sub_le (∑ i, fl R (l j i / ((m + 3 : ℕ) : ℝ))) (∑ i, l j i / ((m + 3 : ℕ) : ℝ)) (1 / ((m + 3 : ℕ) : ℝ))
    norm_num at *; linarith

end

end Dsps.Lemmas
