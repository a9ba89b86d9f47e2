import Verif.Lemmas.RangeMet

/-! A calculus of errors for floats with a finite range: how far flush-to-zero can move the result of a formula. -/
namespace Dsps.Lemmas
open XF Range Dsps.Props

variable {R : Range} {a b c d : Ranged R} {y z e f g A B C : ℝ} {n : ℕ}

/-- The float is a number within `e` of `y`, and `y` has magnitude at most `B`. -/
def Ny (e B : ℝ) (a : Ranged R) (y : ℝ) : Prop := ∃ v, Is a v ∧ |v - y| ≤ e ∧ |y| ≤ B

theorem Ny.mono (h : Ny e A a y) (he : e ≤ g) (hA : A ≤ C) : Ny g C a y := by
  obtain ⟨v, h1, h2, h3⟩ := h
  exact ⟨v, h1, h2.trans he, h3.trans hA⟩
theorem Ny.bound (h : Ny e A a y) (hA : |y| ≤ C) : Ny e C a y := by
  obtain ⟨v, h1, h2, -⟩ := h
  exact ⟨v, h1, h2, hA⟩
theorem Ny.congr (h : Ny e A a y) (hz : y = z) : Ny e A a z := hz ▸ h
theorem Ny.e_nonneg (h : Ny e A a y) : 0 ≤ e := by obtain ⟨v, -, h2, -⟩ := h; exact (abs_nonneg _).trans h2
theorem Ny.b_nonneg (h : Ny e A a y) : 0 ≤ A := by obtain ⟨v, -, -, h3⟩ := h; exact (abs_nonneg _).trans h3
theorem Is.ne (h : Is a y) (hy : |y| ≤ B) (he : 0 ≤ e) : Ny e B a y := ⟨y, h, by rwa [sub_self, abs_zero], hy⟩

/-- one operation -/
theorem ne_fl (hR : Wide R) {v : ℝ} (hv : Is a (fl R v)) (h : |v - y| ≤ e) (hy : |y| ≤ C) (hg : e + 1.2e-38 ≤ g) : Ny g C a y := by
  refine ⟨_, hv, ?_, hy⟩
  have h1 := fl_near (R := R) v
  have h2 := abs_sub_le (fl R v) v y
  have := hR.tiny
  linarith

theorem ne_max (hR : Wide R) {v : ℝ} (h : |v - y| ≤ e) (hy : |y| ≤ C) (he : e ≤ 1) (hC : C ≤ 1e37) : |v| ≤ R.max := by
  have h1 := abs_sub_abs_le_abs_sub v y
  have := hR.max
  norm_num at *; linarith

theorem ne_lit (hR : Wide R) (hy : |y| ≤ B) (hB : B ≤ 1e37 := by norm_num) (he : 1.2e-38 ≤ e := by norm_num) : Ny e B (Flt.lit y : Ranged R) y := by
  refine ne_fl hR (is_litF (ne_max hR (e := 0) (by simp) hy (by norm_num) hB)) (e := 0) (by simp) hy (by linarith)

theorem Ny.add (hR : Wide R) (ha : Ny e A a y) (hb : Ny f B b z) (hg : e + f + 1.2e-38 ≤ g := by norm_num) (hC : A + B ≤ C := by norm_num)
    (hg1 : g ≤ 1 := by norm_num) (hC1 : C ≤ 1e37 := by norm_num) : Ny g C (a + b) (y + z) := by
  have he := ha.e_nonneg; have hf := hb.e_nonneg
  obtain ⟨v, h1, h2, h3⟩ := ha
  obtain ⟨w, k1, k2, k3⟩ := hb
  have hd : |v + w - (y + z)| ≤ e + f := by rw [show v + w - (y + z) = (v - y) + (w - z) by ring]; exact (abs_add_le _ _).trans (add_le_add h2 k2)
  have hB : |y + z| ≤ C := (abs_add_le _ _).trans ((add_le_add h3 k3).trans hC)
  exact ne_fl hR (h1.addF k1 (ne_max hR hd hB (by norm_num at hg ⊢; linarith) hC1)) hd hB hg

theorem Ny.neg (ha : Ny e A a y) : Ny e A (-a) (-y) := by
  obtain ⟨v, h1, h2, h3⟩ := ha
  exact ⟨-v, h1.neg, by rw [← abs_neg]; convert h2 using 2; ring, by rwa [abs_neg]⟩

theorem Ny.sub (hR : Wide R) (ha : Ny e A a y) (hb : Ny f B b z) (hg : e + f + 1.2e-38 ≤ g := by norm_num) (hC : A + B ≤ C := by norm_num)
    (hg1 : g ≤ 1 := by norm_num) (hC1 : C ≤ 1e37 := by norm_num) : Ny g C (a - b) (y - z) := by
  have he := ha.e_nonneg; have hf := hb.e_nonneg
  obtain ⟨v, h1, h2, h3⟩ := ha
  obtain ⟨w, k1, k2, k3⟩ := hb
  have hd : |v - w - (y - z)| ≤ e + f := by rw [show v - w - (y - z) = (v - y) - (w - z) by ring]; exact (abs_sub _ _).trans (add_le_add h2 k2)
  have hB : |y - z| ≤ C := (abs_sub _ _).trans ((add_le_add h3 k3).trans hC)
  exact ne_fl hR (h1.subF k1 (ne_max hR hd hB (by norm_num at hg ⊢; linarith) hC1)) hd hB hg

theorem Ny.mul (hR : Wide R) (ha : Ny e A a y) (hb : Ny f B b z) (hg : (A + e) * f + B * e + 1.2e-38 ≤ g := by norm_num) (hC : A * B ≤ C := by norm_num)
    (hg1 : g ≤ 1 := by norm_num) (hC1 : C ≤ 1e37 := by norm_num) : Ny g C (a * b) (y * z) := by
  have he := ha.e_nonneg; have hf := hb.e_nonneg; have hA := ha.b_nonneg
  obtain ⟨v, h1, h2, h3⟩ := ha
  obtain ⟨w, k1, k2, k3⟩ := hb
  have hv : |v| ≤ A + e := by have := abs_sub_abs_le_abs_sub v y; linarith
  have hd : |v * w - y * z| ≤ (A + e) * f + B * e := by
    rw [show v * w - y * z = v * (w - z) + (v - y) * z by ring]
    refine (abs_add_le _ _).trans (add_le_add ?_ ?_)
    · rw [abs_mul]; exact mul_le_mul hv k2 (abs_nonneg _) (by linarith)
    · rw [abs_mul, mul_comm]; exact mul_le_mul k3 h2 (abs_nonneg _) ((abs_nonneg _).trans k3)
  have hB : |y * z| ≤ C := by rw [abs_mul]; exact (mul_le_mul h3 k3 (abs_nonneg _) hA).trans hC
  exact ne_fl hR (h1.mulF k1 (ne_max hR hd hB (by norm_num at hg ⊢; linarith) hC1)) hd hB hg

/-- division by a number that is at least `c` in magnitude -/
theorem Ny.div {c : ℝ} (hR : Wide R) (ha : Ny e A a y) (hb : Ny f B b z) (hz : c ≤ |z|) (hc : 0 < c := by norm_num) (hfc : f ≤ c / 2 := by norm_num)
    (hg : 2 * e / c + 2 * A * f / c ^ 2 + 1.2e-38 ≤ g := by norm_num) (hC : A / c ≤ C := by norm_num)
    (hg1 : g ≤ 1 := by norm_num) (hC1 : C ≤ 1e37 := by norm_num) : Ny g C (a / b) (y / z) := by
  have he := ha.e_nonneg; have hf := hb.e_nonneg; have hA := ha.b_nonneg
  obtain ⟨v, h1, h2, h3⟩ := ha
  obtain ⟨w, k1, k2, -⟩ := hb
  have hw : c / 2 ≤ |w| := by
    have := abs_sub_abs_le_abs_sub z w
    rw [abs_sub_comm] at this; linarith
  have hz0 : z ≠ 0 := abs_pos.1 (lt_of_lt_of_le hc hz)
  have hw0 : w ≠ 0 := abs_pos.1 (lt_of_lt_of_le (by linarith) hw)
  have hd : |v / w - y / z| ≤ 2 * e / c + 2 * A * f / c ^ 2 := by
    rw [show v / w - y / z = (v - y) / w + y * (z - w) / (w * z) by field_simp; ring]
    refine (abs_add_le _ _).trans (add_le_add ?_ ?_)
    · rw [abs_div]
      calc |v - y| / |w| ≤ e / (c / 2) := div_le_div₀ he h2 (by linarith) hw
        _ = 2 * e / c := by field_simp
    · rw [abs_div, abs_mul, abs_mul, abs_sub_comm]
      calc |y| * |w - z| / (|w| * |z|) ≤ A * f / (c / 2 * c) :=
            div_le_div₀ (by positivity) (mul_le_mul h3 k2 (abs_nonneg _) hA) (by positivity) (mul_le_mul hw hz hc.le (abs_nonneg _))
        _ = 2 * A * f / c ^ 2 := by field_simp
  have hB : |y / z| ≤ C := by rw [abs_div]; exact (div_le_div₀ hA h3 hc hz).trans hC
  exact ne_fl hR (h1.divF k1 hw0 (ne_max hR hd hB (by norm_num at hg ⊢; linarith) hC1)) hd hB hg

/-- division when the quotient is known to be at most `D` -/
theorem Ny.div_le {c D : ℝ} (hR : Wide R) (ha : Ny e A a y) (hb : Ny f B b z) (hz : c ≤ |z|) (hD : |y| ≤ D * |z|) (hc : 0 < c := by norm_num) (hfc : f ≤ c / 2 := by norm_num)
    (hg : 2 * e / c + 2 * D * f / c + 1.2e-38 ≤ g := by norm_num) (hC : D ≤ C := by norm_num)
    (hg1 : g ≤ 1 := by norm_num) (hC1 : C ≤ 1e37 := by norm_num) : Ny g C (a / b) (y / z) := by
  have he := ha.e_nonneg; have hf := hb.e_nonneg
  obtain ⟨v, h1, h2, h3⟩ := ha
  obtain ⟨w, k1, k2, -⟩ := hb
  have hw : c / 2 ≤ |w| := by
    have := abs_sub_abs_le_abs_sub z w
    rw [abs_sub_comm] at this; linarith
  have hzp : 0 < |z| := lt_of_lt_of_le hc hz
  have hz0 : z ≠ 0 := abs_pos.1 hzp
  have hw0 : w ≠ 0 := abs_pos.1 (lt_of_lt_of_le (by linarith) hw)
  have hq : |y / z| ≤ D := by rw [abs_div, div_le_iff₀ hzp]; exact hD
  have hD0 : 0 ≤ D := (abs_nonneg _).trans hq
  have hd : |v / w - y / z| ≤ 2 * e / c + 2 * D * f / c := by
    rw [show v / w - y / z = (v - y) / w + (y / z) * ((z - w) / w) by field_simp; ring]
    refine (abs_add_le _ _).trans (add_le_add ?_ ?_)
    · rw [abs_div]
      calc |v - y| / |w| ≤ e / (c / 2) := div_le_div₀ he h2 (by linarith) hw
        _ = 2 * e / c := by field_simp
    · rw [abs_mul, abs_div (z - w), abs_sub_comm]
      calc |y / z| * (|w - z| / |w|) ≤ D * (f / (c / 2)) := mul_le_mul hq (div_le_div₀ hf k2 (by linarith) hw) (by positivity) hD0
        _ = 2 * D * f / c := by field_simp
  have hB : |y / z| ≤ C := hq.trans hC
  exact ne_fl hR (h1.divF k1 hw0 (ne_max hR hd hB (by norm_num at hg ⊢; linarith) hC1)) hd hB hg

/-! ### clamps and branches -/

open Classical in
theorem sel_pos {p : Prop} (h : p) : (Flt.sel p a b : Ranged R) = a := if_pos h
open Classical in
theorem sel_neg {p : Prop} (h : ¬ p) : (Flt.sel p a b : Ranged R) = b := if_neg h

/-- a branch on exact numbers -/
theorem ne_sel {p : Prop} {q : Prop} [Decidable q] (hp : p ↔ q) (ha : q → Ny e A a y) (hb : ¬ q → Ny e A b z) :
    Ny e A (Flt.sel p a b) (if q then y else z) := by
  by_cases h : q
  · rw [if_pos h, sel_pos (hp.2 h)]; exact ha h
  · rw [if_neg h, sel_neg (fun k => h (hp.1 k))]; exact hb h

theorem is_lit0 : Is (Flt.lit 0 : Ranged R) 0 := is_lit (Or.inl rfl)

/-- negative numbers replaced by zero -/
theorem Ny.clamp (ha : Ny e A a y) : Ny e A (Flt.sel (Gen.lt a (Flt.lit 0)) (Flt.lit 0) a) (if y < 0 then 0 else y) := by
  have he := ha.e_nonneg; have hA := ha.b_nonneg
  obtain ⟨v, h1, h2, h3⟩ := ha
  rw [abs_le] at h2
  have hlt : Gen.lt a (Flt.lit 0) ↔ v < 0 := lt_iffF h1 is_lit0
  by_cases h : Gen.lt a (Flt.lit 0) <;> by_cases h' : y < 0
  · rw [sel_pos h, if_pos h']; exact is_lit0.ne (by rw [abs_zero]; exact hA) he
  · rw [sel_pos h, if_neg h']
    have := hlt.1 h
    exact ⟨0, is_lit0, by rw [abs_le]; push Not at h'; constructor <;> linarith, h3⟩
  · rw [sel_neg h, if_pos h']
    rw [hlt] at h; push Not at h
    exact ⟨v, h1, by rw [abs_le]; constructor <;> linarith, by rw [abs_zero]; exact hA⟩
  · rw [sel_neg h, if_neg h']; exact ⟨v, h1, by rw [abs_le]; exact h2, h3⟩

/-- positive numbers replaced by zero -/
theorem Ny.clamp_pos (ha : Ny e A a y) : Ny e A (Flt.sel (Gen.lt (Flt.lit 0) a) (Flt.lit 0) a) (if y > 0 then 0 else y) := by
  have he := ha.e_nonneg; have hA := ha.b_nonneg
  obtain ⟨v, h1, h2, h3⟩ := ha
  rw [abs_le] at h2
  have hlt : Gen.lt (Flt.lit 0) a ↔ 0 < v := lt_iffF is_lit0 h1
  by_cases h : Gen.lt (Flt.lit 0) a <;> by_cases h' : y > 0
  · rw [sel_pos h, if_pos h']; exact is_lit0.ne (by rw [abs_zero]; exact hA) he
  · rw [sel_pos h, if_neg h']
    have := hlt.1 h
    exact ⟨0, is_lit0, by rw [abs_le]; push Not at h'; constructor <;> linarith, h3⟩
  · rw [sel_neg h, if_pos h']
    rw [hlt] at h; push Not at h
    exact ⟨v, h1, by rw [abs_le]; constructor <;> linarith, by rw [abs_zero]; exact hA⟩
  · rw [sel_neg h, if_neg h']; exact ⟨v, h1, by rw [abs_le]; exact h2, h3⟩

/-! ### functions -/

theorem logistic_lip (v y : ℝ) : |Jnp.sigmoid v - Jnp.sigmoid y| ≤ |v - y| := by
  have key : ∀ v y : ℝ, y ≤ v → |Jnp.sigmoid v - Jnp.sigmoid y| ≤ v - y := by
    intro v y h
    have h1 : 0 ≤ Real.exp (-y) - Real.exp (-v) := sub_nonneg.2 (Real.exp_le_exp.2 (by linarith))
    have p := Real.exp_pos (-v)
    have q := Real.exp_pos (-y)
    have e : Jnp.sigmoid v - Jnp.sigmoid y = (Real.exp (-y) - Real.exp (-v)) / ((1 + Real.exp (-v)) * (1 + Real.exp (-y))) := by
      unfold Jnp.sigmoid; field_simp; ring
    have h2 : Real.exp (-y) - Real.exp (-v) ≤ (v - y) * Real.exp (-y) := by
      have h3 := Real.add_one_le_exp (y - v)
      have : Real.exp (-v) = Real.exp (-y) * Real.exp (y - v) := by rw [← Real.exp_add]; congr 1; ring
      rw [this]; nlinarith
    rw [e, abs_of_nonneg (by positivity), div_le_iff₀ (by positivity)]
    refine h2.trans (mul_le_mul_of_nonneg_left ?_ (by linarith))
    nlinarith [mul_pos p q]
  rcases le_total y v with h | h
  · rw [abs_of_nonneg (sub_nonneg.2 h)]; exact key v y h
  · rw [abs_sub_comm, abs_sub_comm v y, abs_of_nonneg (sub_nonneg.2 h)]; exact key y v h

theorem logistic_abs (y : ℝ) : |Jnp.sigmoid y| ≤ 1 := by
  have p := Real.exp_pos (-y)
  unfold Jnp.sigmoid
  rw [abs_of_pos (by positivity), div_le_one (by positivity)]; linarith

theorem Ny.logistic (hR : Wide R) (ha : Ny e A a y) (hg : e + 1.2e-38 ≤ g := by norm_num) : Ny g 1 (Flt.logistic a) (Jnp.sigmoid y) := by
  obtain ⟨v, h1, h2, -⟩ := ha
  have hv : Is (Flt.logistic a) (fl R (Jnp.sigmoid v)) := by
    refine is_fit ?_ ((logistic_abs v).trans R.max_ge)
    show Rep (1 / (1 + XF.exp (-a.x))) _
    rw [h1.1.neg.exp]
    exact (Rep.fin 1).div ((Rep.fin 1).add (Rep.fin _)) (by positivity)
  exact ne_fl hR hv ((logistic_lip v y).trans h2) (logistic_abs y) hg

/-- ten to the power of a number at most `U` -/
theorem Ny.exp10 {U : ℝ} (hR : Wide R) (ha : Ny e A a y) (hU : (10:ℝ) ^ y ≤ U) (he : e ≤ 0.1 := by norm_num) (hg : 5 * U * e + 1.2e-38 ≤ g := by norm_num)
    (hg1 : g ≤ 1 := by norm_num) (hU1 : U ≤ 1e37 := by norm_num) : Ny g U (Flt.exp10 a) ((10:ℝ) ^ y) := by
  obtain ⟨v, h1, h2, -⟩ := ha
  have hp : (0:ℝ) < (10:ℝ) ^ y := Real.rpow_pos_of_pos (by norm_num) _
  have hd : |(10:ℝ) ^ v - (10:ℝ) ^ y| ≤ 5 * U * e := by
    have : (10:ℝ) ^ v = (10:ℝ) ^ y * (10:ℝ) ^ (v - y) := by rw [← Real.rpow_add (by norm_num)]; congr 1; ring
    rw [this, show (10:ℝ) ^ y * (10:ℝ) ^ (v - y) - (10:ℝ) ^ y = (10:ℝ) ^ y * ((10:ℝ) ^ (v - y) - 1) by ring, abs_mul, abs_of_pos hp]
    refine (mul_le_mul hU (ten_near h2 he) (abs_nonneg _) (hp.le.trans hU)).trans (le_of_eq (by ring))
  have hB : |(10:ℝ) ^ y| ≤ U := by rwa [abs_of_pos hp]
  have hm := ne_max hR hd hB (by norm_num at hg ⊢; linarith) hU1
  rw [abs_of_pos (Real.rpow_pos_of_pos (by norm_num) _)] at hm
  exact ne_fl hR (h1.exp10F hm) hd hB hg

/-- a positive number between a hundredth and a hundred to a power that is nearly known -/
theorem Ny.rpow {U x : ℝ} (hR : Wide R) (hb : Is b x) (ha : Ny e A a y) (hx : 0.01 ≤ x) (hx' : x ≤ 100) (hU : x ^ y ≤ U) (he : e ≤ 0.05 := by norm_num)
    (hg : 10 * U * e + 1.2e-38 ≤ g := by norm_num) (hg1 : g ≤ 1 := by norm_num) (hU1 : U ≤ 1e37 := by norm_num) : Ny g U (Flt.pow b a) (x ^ y) := by
  obtain ⟨v, h1, h2, -⟩ := ha
  have hx0 : 0 < x := lt_of_lt_of_le (by norm_num) hx
  have hp : (0:ℝ) < x ^ y := Real.rpow_pos_of_pos hx0 _
  have hlog : |Real.logb 10 x| ≤ 2 := by
    rw [abs_le]
    constructor
    · rw [Real.le_logb_iff_rpow_le (by norm_num) hx0]; refine le_trans ?_ hx
      rw [Real.rpow_neg (by norm_num), show (2:ℝ) = ((2:ℕ):ℝ) by norm_num, Real.rpow_natCast]; norm_num
    · rw [Real.logb_le_iff_le_rpow (by norm_num) hx0]; refine hx'.trans ?_
      rw [show (2:ℝ) = ((2:ℕ):ℝ) by norm_num, Real.rpow_natCast]; norm_num
  have hd : |x ^ v - x ^ y| ≤ 10 * U * e := by
    have h3 : x ^ (v - y) = (10:ℝ) ^ (Real.logb 10 x * (v - y)) := by
      rw [Real.rpow_mul (by norm_num), Real.rpow_logb (by norm_num) (by norm_num) hx0]
    have h4 : |Real.logb 10 x * (v - y)| ≤ 2 * e := by rw [abs_mul]; exact mul_le_mul hlog h2 (abs_nonneg _) (by norm_num)
    have : x ^ v = x ^ y * x ^ (v - y) := by rw [← Real.rpow_add hx0]; congr 1; ring
    rw [this, show x ^ y * x ^ (v - y) - x ^ y = x ^ y * (x ^ (v - y) - 1) by ring, abs_mul, abs_of_pos hp, h3]
    refine (mul_le_mul hU (ten_near h4 (by norm_num at he ⊢; linarith)) (abs_nonneg _) (hp.le.trans hU)).trans (le_of_eq (by ring))
  have hB : |x ^ y| ≤ U := by rwa [abs_of_pos hp]
  exact ne_fl hR (is_fit (rep_pow hb.1 h1.1 hx0) (ne_max hR hd hB (by norm_num at hg ⊢; linarith) hU1)) hd hB hg

theorem ne_sq (hR : Wide R) (ha : Ny e A a y) (hg : (A + e) * e + A * e + 1.2e-38 ≤ g := by norm_num) (hC : A * A ≤ C := by norm_num)
    (hg1 : g ≤ 1 := by norm_num) (hC1 : C ≤ 1e37 := by norm_num) : Ny g C (Flt.ipow a 2) (y ^ 2) := by
  rw [pow_two]; exact ha.mul hR ha hg hC hg1 hC1

theorem ne_cube (hR : Wide R) (ha : Ny e A a y) (hf : (A + e) * e + A * e + 1.2e-38 ≤ f := by norm_num) (hB : A * A ≤ B := by norm_num)
    (hg : (B + f) * e + A * f + 1.2e-38 ≤ g := by norm_num) (hC : B * A ≤ C := by norm_num) (hf1 : f ≤ 1 := by norm_num) (hB1 : B ≤ 1e37 := by norm_num)
    (hg1 : g ≤ 1 := by norm_num) (hC1 : C ≤ 1e37 := by norm_num) : Ny g C (Flt.ipow a 3) (y ^ 3) := by
  rw [show y ^ 3 = y * y * y by ring]; exact (ha.mul hR ha hf hB hf1 hB1).mul hR ha hg hC hg1 hC1

/-- the sigmoid of nearly known arguments: `e` bounds the errors, `A` the height, `B` the argument of the logistic function -/
theorem ne_sigmoid (hR : Wide R) {x x0 k lo hi : Ranged R} {X X0 K LO HI e D K' H : ℝ} (hx : Ny e D x X) (h0 : Ny e D x0 X0) (hk : Ny e K' k K) (hl : Ny e H lo LO)
    (hh : Ny e H hi HI) (he : 1.2e-38 ≤ e := by norm_num) (he1 : e ≤ 1e-20 := by norm_num)
    (hg : (1 + 2 * H) * ((K' + e) * (3 * e) + 2 * D * e + 2 * e) + 6 * e ≤ g := by norm_num) (hC : 3 * H ≤ C := by norm_num)
    (hD : 2 * D * K' ≤ 1e36 := by norm_num) (hH : 3 * H ≤ 1e37 := by norm_num) (hDD : 2 * D ≤ 1e37 := by norm_num) (hg1 : g ≤ 1 := by norm_num) (hC1 : C ≤ 1e37 := by norm_num) :
    Ny g C (Gen.sigmoid x x0 k lo hi) (Utils.sigmoid X X0 K LO HI) := by
  have hH0 := hl.b_nonneg; have hK0 := hk.b_nonneg; have hD0 := hx.b_nonneg; have he0 := hx.e_nonneg
  have h1 : Ny (3 * e) (2 * D) (x - x0) (X - X0) := hx.sub hR h0 (by linarith) (by linarith) (by norm_num at *; linarith) hDD
  have hsmall : (K' + e) * (3 * e) + 2 * D * e + 2 * e ≤ 1 := by nlinarith [mul_nonneg hH0 he0, mul_nonneg hH0 (mul_nonneg (add_nonneg hK0 he0) he0), mul_nonneg hH0 (mul_nonneg hD0 he0)]
  have h2 : Ny ((K' + e) * (3 * e) + 2 * D * e + e) (K' * (2 * D)) (k * (x - x0)) (K * (X - X0)) :=
    hk.mul hR h1 (by linarith) le_rfl (by linarith) (by norm_num at *; linarith)
  have h3 : Ny ((K' + e) * (3 * e) + 2 * D * e + 2 * e) 1 (Flt.logistic (k * (x - x0))) (Jnp.sigmoid (K * (X - X0))) := h2.logistic hR (by linarith)
  have h4 : Ny (3 * e) (2 * H) (hi - lo) (HI - LO) := hh.sub hR hl (by linarith) (by linarith) (by norm_num at *; linarith) (by linarith)
  set q := (K' + e) * (3 * e) + 2 * D * e + 2 * e with hq
  have hq0 : 0 ≤ q := h3.e_nonneg
  have hq1 : 3 * e * q ≤ q := by nlinarith
  have h5 : Ny ((2 * H + 1) * q + 4 * e) (2 * H) ((hi - lo) * Flt.logistic (k * (x - x0))) ((HI - LO) * Jnp.sigmoid (K * (X - X0))) :=
    h4.mul hR h3 (by nlinarith) (by linarith) (by linarith) (by linarith)
  exact hl.add hR h5 (by linarith) (by linarith) hg1 hC1

/-- the line of varying slope -/
theorem ne_sig_slope (hR : Wide R) {x xtp ytp x0 k lo hi : Ranged R} {X XTP YTP X0 K LO HI e f D K' H Y S : ℝ} (hx : Ny e D x X) (ht : Ny e D xtp XTP) (hy : Ny e Y ytp YTP)
    (h0 : Ny e D x0 X0) (hk : Ny e K' k K) (hl : Ny e H lo LO) (hh : Ny e H hi HI) (he : 1.2e-38 ≤ e := by norm_num) (he1 : e ≤ 1e-20 := by norm_num)
    (hf : (1 + 2 * H) * ((K' + e) * (3 * e) + 2 * D * e + 2 * e) + 6 * e ≤ f := by norm_num) (hS : 3 * H ≤ S := by norm_num)
    (hD : 2 * D * K' ≤ 1e36 := by norm_num) (hH : 3 * H ≤ 1e37 := by norm_num) (hDD : 2 * D ≤ 1e37 := by norm_num) (hf1 : f ≤ 1 := by norm_num) (hS1 : S ≤ 1e37 := by norm_num)
    (hg : (S + f) * (3 * e) + 2 * D * f + 3 * e ≤ g := by norm_num) (hC : Y + S * (2 * D) ≤ C := by norm_num) (hg1 : g ≤ 1 := by norm_num) (hC1 : C ≤ 1e37 := by norm_num) :
    Ny g C (Gen.sig_slope x xtp ytp x0 k lo hi) (Utils.sig_slope X XTP YTP X0 K LO HI) := by
  have hD0 := hx.b_nonneg; have he0 := hx.e_nonneg; have hY0 := hy.b_nonneg
  have h1 : Ny f S (Gen.sigmoid x x0 k lo hi) (Utils.sigmoid X X0 K LO HI) := ne_sigmoid hR hx h0 hk hl hh he he1 hf hS hD hH hDD hf1 hS1
  have h2 : Ny (3 * e) (2 * D) (x - xtp) (X - XTP) := hx.sub hR ht (by linarith) (by linarith) (by norm_num at *; linarith) hDD
  have h3 : Ny ((S + f) * (3 * e) + 2 * D * f + e) (S * (2 * D)) (Gen.sigmoid x x0 k lo hi * (x - xtp)) (Utils.sigmoid X X0 K LO HI * (X - XTP)) :=
    h1.mul hR h2 (by linarith) le_rfl (by linarith) (by linarith)
  exact hy.add hR h3 (by linarith) hC hg1 hC1

end Dsps.Lemmas
