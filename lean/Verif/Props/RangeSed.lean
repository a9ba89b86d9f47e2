import Verif.Lemmas.RangeMet
import Verif.Props.RangeObs

/-! Property C164: the galaxy model on floats with a finite exponent range. -/
namespace Dsps.Props
open XF Range Dsps.Lemmas Dsps.Constants
open Dsps.Photometry (AB0)

variable {R : Range} {n m k w : ℕ}

theorem card_tiny (hR : Wide R) {c : ℝ} (hc : c ≤ 2e6) : c * R.tiny ≤ 1e-31 :=
  (mul_le_mul_of_nonneg_right hc R.tiny_pos.le).trans ((mul_le_mul_of_nonneg_left hR.tiny (by norm_num)).trans (by norm_num))

theorem sum2_near {p q : ℕ} {f g : Fin p → Fin q → ℝ} {δ : ℝ} (h : ∀ i j, |f i j - g i j| ≤ δ) : |∑ i, ∑ j, f i j - ∑ i, ∑ j, g i j| ≤ p * q * δ := by
  rw [← Finset.sum_sub_distrib]
  refine (Finset.abs_sum_le_sum_abs _ _).trans ?_
  have : ∀ i, |∑ j, f i j - ∑ j, g i j| ≤ q * δ := fun i => by
    rw [← Finset.sum_sub_distrib]
    refine (Finset.abs_sum_le_sum_abs _ _).trans ((Finset.sum_le_sum fun j _ => h i j).trans ?_)
    simp
  refine (Finset.sum_le_sum fun i _ => this i).trans ?_
  simp [mul_assoc]

theorem sum2_bound {p q : ℕ} {f : Fin p → Fin q → ℝ} {δ : ℝ} (h : ∀ i j, f i j ≤ δ) : ∑ i, ∑ j, f i j ≤ p * q * δ := by
  refine (Finset.sum_le_sum fun i _ => Finset.sum_le_sum fun j _ => h i j).trans ?_
  simp [mul_assoc]

/-- The joint weights: normalised, non-negative up to `2e-29`. -/
theorem range_joint (hR : Wide R) (hk : k ≤ 1000) (hm : m ≤ 1000) {x : Fin k → Fin m → Ranged R} {v : Fin k → Fin m → ℝ} {c : ℝ} (hc0 : 1e-3 ≤ c)
    (hx : ∀ i j, Is (x i j) (v i j)) (h0 : ∀ i j, -1e-32 ≤ v i j) (h1 : ∀ i j, v i j ≤ 10) (hs : |∑ i, ∑ j, v i j - c| ≤ 1e-20) :
    ∃ u : Fin k → Fin m → ℝ, (∀ i j, Is (x i j / Gen.sum2 x) (u i j)) ∧ (∀ i j, -2e-29 ≤ u i j) ∧ (∀ i j, u i j ≤ 2e4) ∧ |∑ i, ∑ j, u i j - 1| ≤ 1e-27 := by
  have hM := hR.max
  have ht := R.tiny_pos
  have htl := hR.tiny
  have hk' : (k : ℝ) ≤ 1000 := by exact_mod_cast hk
  have hm' : (m : ℝ) ≤ 1000 := by exact_mod_cast hm
  have hkm : (k : ℝ) * m ≤ 1e6 := by
    refine (mul_le_mul hk' hm' (by positivity) (by norm_num)).trans (by norm_num)
  have hab : ∀ i j, |v i j| ≤ 10 := fun i j => abs_le.2 ⟨by have := h0 i j; linarith, h1 i j⟩
  obtain ⟨S, hS, hd⟩ := is_sum2 hx ((sum2_bound hab).trans (by linarith))
  have c1 : (k : ℝ) * (m + 1) * R.tiny ≤ 1e-31 := card_tiny hR (by nlinarith)
  have d1 := abs_le.1 (hd.trans c1)
  have d2 := abs_le.1 hs
  have hS1 : 9e-4 ≤ S := by norm_num at *; linarith
  have hS0 : 0 < S := by norm_num at *; linarith
  have hdiv : ∀ i j, |v i j / S| ≤ 1.9e4 := fun i j => by
    rw [abs_div, abs_of_pos hS0, div_le_iff₀ hS0]
    have := hab i j
    norm_num at *; linarith
  refine ⟨_, fun i j => (hx i j).divF hS hS0.ne' ((hdiv i j).trans (by linarith)), fun i j => ?_, fun i j => ?_, ?_⟩
  · have : -1.5e-29 ≤ v i j / S := by
      rw [le_div_iff₀ hS0]
      have := h0 i j
      norm_num at *; linarith
    have := fl_ge (R := R) (v i j / S)
    norm_num at *; linarith
  · have := fl_le' (R := R) (v i j / S)
    have := abs_le.1 (hdiv i j)
    linarith
  · have e1 := sum2_near fun i j => fl_near (R := R) (v i j / S)
    have e2 : |∑ i, ∑ j, v i j / S - 1| ≤ 5e-28 := by
      simp_rw [← Finset.sum_div]
      rw [show (∑ i, ∑ j, v i j) / S - 1 = (∑ i, ∑ j, v i j - S) / S by field_simp, abs_div, abs_of_pos hS0, div_le_iff₀ hS0, abs_le]
      norm_num at *; constructor <;> linarith
    have e3 : (k : ℝ) * m * R.tiny ≤ 1e-31 := card_tiny hR (by linarith)
    have := abs_sub_le (∑ i, ∑ j, fl R (v i j / S)) (∑ i, ∑ j, v i j / S) 1
    norm_num at *; linarith

/-- the outer product of metallicity and age weights -/
theorem range_outer (hR : Wide R) (hk : k ≤ 1000) (hm : m ≤ 1000) {x : Fin k → Fin m → Ranged R} {y : Fin m → Ranged R} {l : Fin k → Fin m → ℝ} {a : Fin m → ℝ} {c : ℝ}
    (hc0 : 0 < c) (hc1 : c ≤ 1) (hx : ∀ i j, Is (x i j) (l i j)) (hy : ∀ j, Is (y j) (a j)) (hl0 : ∀ i j, -3e-33 ≤ l i j) (hl1 : ∀ i j, l i j ≤ 2)
    (hls : ∀ j, |∑ i, l i j - c| ≤ 1e-22) (ha0 : ∀ j, 0 ≤ a j) (has : |∑ j, a j - 1| ≤ 1e-24) :
    ∃ v : Fin k → Fin m → ℝ, (∀ i j, Is (x i j * y j) (v i j)) ∧ (∀ i j, -1e-32 ≤ v i j) ∧ (∀ i j, v i j ≤ 10) ∧ |∑ i, ∑ j, v i j - c| ≤ 1e-20 := by
  have hM := hR.max
  have ht := R.tiny_pos
  have htl := hR.tiny
  have hk' : (k : ℝ) ≤ 1000 := by exact_mod_cast hk
  have hm' : (m : ℝ) ≤ 1000 := by exact_mod_cast hm
  have hkm : (k : ℝ) * m ≤ 1e6 := (mul_le_mul hk' hm' (by positivity) (by norm_num)).trans (by norm_num)
  have s := abs_le.1 has
  have ha1 : ∀ j, a j ≤ 1.1 := fun j => by
    have := Finset.single_le_sum (f := a) (fun i _ => ha0 i) (Finset.mem_univ j)
    norm_num at *; linarith
  have hp0 : ∀ i j, -5e-33 ≤ l i j * a j := fun i j => by
    have := mul_le_mul_of_nonneg_right (hl0 i j) (ha0 j)
    have := ha1 j
    norm_num at *; linarith
  have hp1 : ∀ i j, l i j * a j ≤ 3 := fun i j => by
    have := mul_le_mul_of_nonneg_right (hl1 i j) (ha0 j)
    have := ha1 j
    norm_num at *; linarith
  refine ⟨_, fun i j => (hx i j).mulF (hy j) (abs_le.2 ⟨by have := hp0 i j; norm_num at *; linarith, by have := hp1 i j; linarith⟩), fun i j => ?_, fun i j => ?_, ?_⟩
  · have := fl_ge (R := R) (l i j * a j); have := hp0 i j
    norm_num at *; linarith
  · have := fl_le' (R := R) (l i j * a j); have := hp1 i j
    linarith
  · have e1 := sum2_near fun i j => fl_near (R := R) (l i j * a j)
    have e3 : (k : ℝ) * m * R.tiny ≤ 1e-31 := card_tiny hR (by linarith)
    have e4 : ∑ i, ∑ j, l i j * a j - c * ∑ j, a j = ∑ j, (∑ i, l i j - c) * a j := by
      rw [Finset.sum_comm, Finset.mul_sum, ← Finset.sum_sub_distrib]
      refine Finset.sum_congr rfl fun j _ => ?_
      rw [← Finset.sum_mul]; ring
    have e5 : |∑ i, ∑ j, l i j * a j - c * ∑ j, a j| ≤ 2e-22 := by
      rw [e4]
      refine (Finset.abs_sum_le_sum_abs _ _).trans ?_
      have : ∀ j, |(∑ i, l i j - c) * a j| ≤ 1e-22 * a j := fun j => by
        rw [abs_mul, abs_of_nonneg (ha0 j)]; exact mul_le_mul_of_nonneg_right (hls j) (ha0 j)
      refine (Finset.sum_le_sum fun j _ => this j).trans ?_
      rw [← Finset.mul_sum]
      norm_num at *; linarith
    have e6 : |c * ∑ j, a j - c| ≤ 1e-24 := by
      rw [show c * ∑ j, a j - c = c * (∑ j, a j - 1) by ring, abs_mul, abs_of_pos hc0]
      exact (mul_le_of_le_one_left (abs_nonneg _) hc1).trans has
    have b1 := abs_sub_le (∑ i, ∑ j, fl R (l i j * a j)) (∑ i, ∑ j, l i j * a j) (c * ∑ j, a j)
    have b2 := abs_sub_le (∑ i, ∑ j, fl R (l i j * a j)) (c * ∑ j, a j) c
    norm_num at *; linarith

/-- the spectrum per unit mass -/
theorem range_unit (hR : Wide R) (hk : k ≤ 1000) (hm : m ≤ 1000) {f u : Fin k → Fin m → ℝ} {u' : Fin k → Fin m → Ranged R} {lo hi : ℝ} (hu : ∀ i j, Is (u' i j) (u i j))
    (h0 : ∀ i j, -2e-29 ≤ u i j) (h1 : ∀ i j, u i j ≤ 2e4) (hs : |∑ i, ∑ j, u i j - 1| ≤ 1e-27) (hf : ∀ i j, lo ≤ f i j ∧ f i j ≤ hi)
    (hlo : 1e-28 ≤ lo) (hhi : hi ≤ 1e10) (hr : hi ≤ 1e20 * lo) :
    ∃ s, Is (Gen.sum2 fun i j => Flt.lit (f i j) * u' i j) s ∧ 0.99 * lo ≤ s ∧ s ≤ 1.01 * hi := by
  have hM := hR.max
  have ht := R.tiny_pos
  have htl := hR.tiny
  have hk' : (k : ℝ) ≤ 1000 := by exact_mod_cast hk
  have hm' : (m : ℝ) ≤ 1000 := by exact_mod_cast hm
  have hkm : (k : ℝ) * m ≤ 1e6 := (mul_le_mul hk' hm' (by positivity) (by norm_num)).trans (by norm_num)
  have hkm0 : 0 ≤ (k : ℝ) * m := by positivity
  have hab : ∀ i j, |u i j| ≤ 2e4 := fun i j => abs_le.2 ⟨by have := h0 i j; norm_num at *; linarith, h1 i j⟩
  have hf0 : ∀ i j, 0 < f i j := fun i j => by have := (hf i j).1; linarith
  have hpb : ∀ i j, |f i j * u i j| ≤ 2e14 := fun i j => by
    rw [abs_mul, abs_of_pos (hf0 i j)]
    exact (mul_le_mul ((hf i j).2.trans hhi) (hab i j) (abs_nonneg _) (by norm_num)).trans (by norm_num)
  have hp : ∀ i j, Is (Flt.lit (f i j) * u' i j) (fl R (f i j * u i j)) := fun i j =>
    (hR.lit (y := f i j) (by have := (hf i j).1; linarith) (by have := (hf i j).2; linarith)).mulF (hu i j) ((hpb i j).trans (by linarith))
  obtain ⟨s, hS, hd⟩ := is_sum2 hp ((sum2_bound fun i j => (fl_abs _).trans (hpb i j)).trans (by linarith))
  have c1 : (k : ℝ) * (m + 1) * R.tiny ≤ 1e-31 := card_tiny hR (by nlinarith)
  have c2 : (k : ℝ) * m * R.tiny ≤ 1e-31 := card_tiny hR (by linarith)
  have e1 := sum2_near fun i j => fl_near (R := R) (f i j * u i j)
  have hlohi : ∀ (i : Fin k) (j : Fin m), lo ≤ hi := fun i j => (hf i j).1.trans (hf i j).2
  -- bounds of the exact sum
  have key : ∀ i j, lo * u i j - hi * 2e-29 ≤ f i j * u i j ∧ f i j * u i j ≤ hi * u i j + hi * 2e-29 := fun i j => by
    have hh : 0 < hi := by have := hlohi i j; linarith
    rcases le_total 0 (u i j) with h | h
    · have p := mul_le_mul_of_nonneg_right (hf i j).1 h
      have q := mul_le_mul_of_nonneg_right (hf i j).2 h
      constructor <;> nlinarith
    · have p := mul_le_mul_of_nonpos_right (hf i j).1 h
      have q := mul_le_mul_of_nonpos_right (hf i j).2 h
      have a := h0 i j
      have b : hi * -2e-29 ≤ hi * u i j := mul_le_mul_of_nonneg_left a hh.le
      have c : f i j * u i j ≤ 0 := mul_nonpos_of_nonneg_of_nonpos (hf0 i j).le h
      have d : lo * u i j ≤ 0 := mul_nonpos_of_nonneg_of_nonpos (by linarith) h
      constructor <;> linarith
  have s1 : lo * (∑ i, ∑ j, u i j) - (k * m) * (hi * 2e-29) ≤ ∑ i, ∑ j, f i j * u i j := by
    have := Finset.sum_le_sum fun i (_ : i ∈ Finset.univ) => Finset.sum_le_sum fun j (_ : j ∈ Finset.univ) => (key i j).1
    simp only [Finset.sum_sub_distrib, ← Finset.mul_sum, Finset.sum_const, Finset.card_univ, Fintype.card_fin, nsmul_eq_mul] at this
    linarith
  have s2 : ∑ i, ∑ j, f i j * u i j ≤ hi * (∑ i, ∑ j, u i j) + (k * m) * (hi * 2e-29) := by
    have := Finset.sum_le_sum fun i (_ : i ∈ Finset.univ) => Finset.sum_le_sum fun j (_ : j ∈ Finset.univ) => (key i j).2
    simp only [Finset.sum_add_distrib, ← Finset.mul_sum, Finset.sum_const, Finset.card_univ, Fintype.card_fin, nsmul_eq_mul] at this
    linarith
  -- there is at least one component
  have hne : lo ≤ hi := by
    rcases Nat.eq_zero_or_pos k with rfl | hk0
    · norm_num at hs
    rcases Nat.eq_zero_or_pos m with rfl | hm0
    · norm_num at hs
    exact hlohi ⟨0, hk0⟩ ⟨0, hm0⟩
  have hh : 0 < hi := by linarith
  have a := abs_le.1 hs
  have d := abs_le.1 (hd.trans c1)
  have e := abs_le.1 (e1.trans c2)
  have g : (k : ℝ) * m * (hi * 2e-29) ≤ 2e-23 * hi := by
    have := mul_le_mul_of_nonneg_right hkm (show 0 ≤ hi * 2e-29 by positivity)
    norm_num at *; linarith
  have p1 : lo * (1 - 1e-27) ≤ lo * (∑ i, ∑ j, u i j) := mul_le_mul_of_nonneg_left (by linarith) (by linarith)
  have p2 : hi * (∑ i, ∑ j, u i j) ≤ hi * (1 + 1e-27) := mul_le_mul_of_nonneg_left (by linarith) (by linarith)
  refine ⟨s, hS, ?_, ?_⟩
  · norm_num at *; linarith
  · norm_num at *; linarith

section
variable [Jnp.Dtype] {t sfr met : Fin (n + 2) → ℝ} {s0 t_obs : ℝ} {ages : Fin (m + 3) → ℝ} {mets : Fin (k + 3) → ℝ} {lgmet scatter lo hi : ℝ}
  {flux : Fin (k + 3) → Fin (m + 3) → Fin w → ℝ}

/-- **Specification.**  The galaxy and the SSP grids considered: rates up to 1e8 Msun/yr at times between 0.011 and 100 Gyr that are at least a Myr apart, grids of at most 1000 ages and
metallicities, a time of observation by which stars of some age of the grid were born in a cell of the table. -/
structure OrdinaryGalaxy (t sfr : Fin (n + 2) → ℝ) (t_obs : ℝ) (ages : Fin (m + 3) → ℝ) (mets : Fin (k + 3) → ℝ) : Prop where
  history : OrdinaryHistory t sfr
  agegrid : AgeGrid ages
  metgrid : MetGrid mets
  time : 0.01 ≤ t_obs ∧ t_obs ≤ 100
  sees : SeesCell t ages t_obs

/-- the weights of the populations, lognormal metallicity distribution -/
theorem weights_lognormal (hR : Wide R) (heps : Jnp.Dtype.interpEps ≤ 1e-6) (G : OrdinaryGalaxy t sfr t_obs ages mets) (h : MetInside lgmet scatter) :
    ∃ u : Fin (k + 3) → Fin (m + 3) → ℝ, (∀ i j, Is (Gen.ssp_weights (fun i _ => Gen.calc_lgmet_weights_from_lognormal_mdf (Flt.lit lgmet) (Flt.lit scatter) (fun j => (Flt.lit (mets j) : Ranged R)) i)
        (Gen.calc_age_weights_from_sfh_table (fun j => Flt.lit (t j)) (fun j => Flt.lit (sfr j)) (fun j => Flt.lit (ages j)) (Flt.lit t_obs)) i j) (u i j)) ∧
      (∀ i j, -2e-29 ≤ u i j) ∧ (∀ i j, u i j ≤ 2e4) ∧ |∑ i, ∑ j, u i j - 1| ≤ 1e-27 := by
  obtain ⟨a, ha, ha0, has⟩ := range_age_weights hR heps G.history (s0 := SFR_MIN) (by norm_num [SFR_MIN]) (by norm_num [SFR_MIN]) G.agegrid G.time.1 G.time.2 G.sees
  obtain ⟨l, hl, hl0, hl1, hls⟩ := range_lognormal hR G.metgrid h
  obtain ⟨v, hv, hv0, hv1, hvs⟩ := range_outer hR G.metgrid.card G.agegrid.card (c := 1) (l := fun i _ => l i) (by norm_num) le_rfl (fun i _ => hl i) ha
    (fun i _ => by have := hl0 i; norm_num at *; linarith) (fun i _ => hl1 i) (fun _ => hls.trans (by norm_num)) ha0 has
  exact range_joint hR G.metgrid.card G.agegrid.card (by norm_num) hv hv0 hv1 hvs

/-- the weights of the populations, metallicity history -/
theorem weights_table (hR : Wide R) (heps : Jnp.Dtype.interpEps ≤ 1e-6) (G : OrdinaryGalaxy t sfr t_obs ages mets) (h : ∀ j, MetInside (met j) scatter) :
    ∃ u : Fin (k + 3) → Fin (m + 3) → ℝ, (∀ i j, Is (Gen.ssp_weights (Gen.calc_lgmet_weights_from_lgmet_table (fun j => (Flt.lit (t j) : Ranged R)) (fun j => Flt.lit (met j)) (Flt.lit scatter)
        (fun j => Flt.lit (mets j)) (fun j => Flt.lit (ages j)) (Flt.lit t_obs))
        (Gen.calc_age_weights_from_sfh_table (fun j => Flt.lit (t j)) (fun j => Flt.lit (sfr j)) (fun j => Flt.lit (ages j)) (Flt.lit t_obs)) i j) (u i j)) ∧
      (∀ i j, -2e-29 ≤ u i j) ∧ (∀ i j, u i j ≤ 2e4) ∧ |∑ i, ∑ j, u i j - 1| ≤ 1e-27 := by
  obtain ⟨a, ha, ha0, has⟩ := range_age_weights hR heps G.history (s0 := SFR_MIN) (by norm_num [SFR_MIN]) (by norm_num [SFR_MIN]) G.agegrid G.time.1 G.time.2 G.sees
  obtain ⟨l, hl, hl0, hl1, hls⟩ := range_met_table hR heps G.history G.agegrid G.metgrid G.time.1 G.time.2 h
  have hm1 : (1:ℝ) ≤ ((m + 3 : ℕ) : ℝ) := by push_cast; linarith [Nat.cast_nonneg (α := ℝ) m]
  have hm2 : ((m + 3 : ℕ) : ℝ) ≤ 1000 := by exact_mod_cast G.agegrid.card
  have hc0 : (1e-3:ℝ) ≤ 1 / ((m + 3 : ℕ) : ℝ) := by
    rw [le_div_iff₀ (by linarith)]; norm_num at *; linarith
  obtain ⟨v, hv, hv0, hv1, hvs⟩ := range_outer hR G.metgrid.card G.agegrid.card (by linarith) (by rw [div_le_one (by linarith)]; exact hm1) hl ha hl0 hl1 hls ha0 has
  exact range_joint hR G.metgrid.card G.agegrid.card hc0 hv hv0 hv1 hvs

/-- C164: with exponents limited as in single precision (or less limited), the weights that the galaxy model gives to the stellar populations are finite, non-negative up to `1e-28`, and
sum to one up to `1e-26`. -/
theorem C164_weights (hR : Wide R) (heps : Jnp.Dtype.interpEps ≤ 1e-6) (G : OrdinaryGalaxy t sfr t_obs ages mets) (h : MetInside lgmet scatter) :
    ∃ u : Fin (k + 3) → Fin (m + 3) → ℝ, (∀ i j, Rep (Gen.ssp_weights (fun i _ => Gen.calc_lgmet_weights_from_lognormal_mdf (Flt.lit lgmet) (Flt.lit scatter) (fun j => (Flt.lit (mets j) : Ranged R)) i)
        (Gen.calc_age_weights_from_sfh_table (fun j => Flt.lit (t j)) (fun j => Flt.lit (sfr j)) (fun j => Flt.lit (ages j)) (Flt.lit t_obs)) i j).x (u i j)) ∧
      (∀ i j, -1e-28 ≤ u i j) ∧ |∑ i, ∑ j, u i j - 1| ≤ 1e-26 := by
  obtain ⟨u, hu, h0, -, hs⟩ := weights_lognormal hR heps G h
  exact ⟨u, fun i j => (hu i j).1, fun i j => by have := h0 i j; norm_num at *; linarith, hs.trans (by norm_num)⟩

/-- C164: so are the weights with a metallicity history. -/
theorem C164_weights_met_table (hR : Wide R) (heps : Jnp.Dtype.interpEps ≤ 1e-6) (G : OrdinaryGalaxy t sfr t_obs ages mets) (h : ∀ j, MetInside (met j) scatter) :
    ∃ u : Fin (k + 3) → Fin (m + 3) → ℝ, (∀ i j, Rep (Gen.ssp_weights (Gen.calc_lgmet_weights_from_lgmet_table (fun j => (Flt.lit (t j) : Ranged R)) (fun j => Flt.lit (met j)) (Flt.lit scatter)
        (fun j => Flt.lit (mets j)) (fun j => Flt.lit (ages j)) (Flt.lit t_obs))
        (Gen.calc_age_weights_from_sfh_table (fun j => Flt.lit (t j)) (fun j => Flt.lit (sfr j)) (fun j => Flt.lit (ages j)) (Flt.lit t_obs)) i j).x (u i j)) ∧
      (∀ i j, -1e-28 ≤ u i j) ∧ |∑ i, ∑ j, u i j - 1| ≤ 1e-26 := by
  obtain ⟨u, hu, h0, -, hs⟩ := weights_table hR heps G h
  exact ⟨u, fun i j => (hu i j).1, fun i j => by have := h0 i j; norm_num at *; linarith, hs.trans (by norm_num)⟩

/-- the spectrum: that per unit mass times the mass -/
theorem spectrum_of_unit (hR : Wide R) (heps : Jnp.Dtype.interpEps ≤ 1e-6) (G : OrdinaryGalaxy t sfr t_obs ages mets) (hs0 : 1e-14 ≤ s0) (hs1 : s0 ≤ 1e8) {u : Fin (k + 3) → Fin (m + 3) → ℝ}
    {u' : Fin (k + 3) → Fin (m + 3) → Ranged R} (hu : ∀ i j, Is (u' i j) (u i j)) (h0 : ∀ i j, -2e-29 ≤ u i j) (h1 : ∀ i j, u i j ≤ 2e4) (hs : |∑ i, ∑ j, u i j - 1| ≤ 1e-27)
    (hlo : 1e-28 ≤ lo) (hhi : hi ≤ 1e10) (hr : hi ≤ 1e20 * lo) (l : Fin w) (hf : ∀ i j, lo ≤ flux i j l ∧ flux i j l ≤ hi) :
    ∃ v, Rep (Gen.sum2 (fun i j => Flt.lit (flux i j l) * u' i j) * Gen.mstar_obs (fun j => Flt.lit (t j)) (fun j => Flt.lit (sfr j)) (Flt.lit t_obs) (Flt.lit s0) : Ranged R).x v ∧
      v ≤ 1.1 * hi * massTable t sfr s0 (Fin.last (n + 1)) ∧ ∀ j, t j + 1e-6 ≤ t_obs → 0.9 * lo * massTable t sfr s0 j ≤ v := by
  have hM := hR.max
  have ht := hR.tiny
  obtain ⟨s, hS, hS0, hS1⟩ := range_unit hR G.metgrid.card G.agegrid.card hu h0 h1 hs hf hlo hhi hr
  obtain ⟨M, hMi, hM0, hM1, hMj⟩ := range_mstar hR heps G.history hs0 hs1 G.time.1 G.time.2
  have mb := fun i => ((is_masses hR G.history hs0 hs1).1 i).2
  have hl0 : 0 < lo := by linarith
  have hsp : 0 < s := by linarith
  have hml := (mb (Fin.last (n + 1))).2
  have hMu : M ≤ 1.1e19 := by linarith
  have hsu : s ≤ 1.1e10 := by linarith
  have hp : s * M ≤ R.max := (mul_le_mul hsu hMu hM0.le (by norm_num)).trans (le_trans (by norm_num) hM)
  have hhi0 : 0 ≤ hi := by linarith
  refine ⟨_, (hS.mulF hMi (by rwa [abs_of_nonneg (mul_nonneg hsp.le hM0.le)])).1, ?_, fun j hj => ?_⟩
  · refine (fl_le (mul_nonneg hsp.le hM0.le)).trans ((mul_le_mul hS1 hM1 hM0.le (by linarith)).trans ?_)
    have : 0 ≤ hi * massTable t sfr s0 (Fin.last (n + 1)) := mul_nonneg hhi0 (by linarith [(mb (Fin.last (n + 1))).1])
    norm_num at *; linarith
  · have hmj := hMj j hj
    have hb := (mb j).1
    have h2 : (0.99 * lo) * (0.99 * massTable t sfr s0 j) ≤ s * M := mul_le_mul hS0 hmj (by linarith) hsp.le
    have h3 : 1e-36 ≤ lo * massTable t sfr s0 j := by
      have := mul_le_mul hlo hb (by norm_num) hl0.le
      norm_num at *; linarith
    have := fl_ge (R := R) (s * M)
    norm_num at *; linarith

/-- C164: the spectrum of the galaxy neither overflows nor becomes nan, and it lies between the spectra of the populations, times the mass formed (up to a tenth): below, the mass formed
up to the last tabulated time before the observation; above, all the mass in the table. -/
theorem C164_spectrum (hR : Wide R) (heps : Jnp.Dtype.interpEps ≤ 1e-6) (G : OrdinaryGalaxy t sfr t_obs ages mets) (h : MetInside lgmet scatter) (hs0 : 1e-14 ≤ s0) (hs1 : s0 ≤ 1e8)
    (hlo : 1e-28 ≤ lo) (hhi : hi ≤ 1e10) (hr : hi ≤ 1e20 * lo) (l : Fin w) (hf : ∀ i j, lo ≤ flux i j l ∧ flux i j l ≤ hi) :
    ∃ v, Rep (Gen.calc_rest_sed_sfh_table_lognormal_mdf (fun j => Flt.lit (t j)) (fun j => Flt.lit (sfr j)) (Flt.lit lgmet) (Flt.lit scatter) (fun j => Flt.lit (mets j))
        (fun j => Flt.lit (ages j)) (fun i j l => Flt.lit (flux i j l)) (Flt.lit t_obs) (Flt.lit s0) l : Ranged R).x v ∧
      v ≤ 1.1 * hi * massTable t sfr s0 (Fin.last (n + 1)) ∧ ∀ j, t j + 1e-6 ≤ t_obs → 0.9 * lo * massTable t sfr s0 j ≤ v := by
  obtain ⟨u, hu, h0, h1, hs⟩ := weights_lognormal hR heps G h
  exact spectrum_of_unit hR heps G hs0 hs1 hu h0 h1 hs hlo hhi hr l hf

/-- C164: the same with a metallicity history. -/
theorem C164_spectrum_met_table (hR : Wide R) (heps : Jnp.Dtype.interpEps ≤ 1e-6) (G : OrdinaryGalaxy t sfr t_obs ages mets) (h : ∀ j, MetInside (met j) scatter) (hs0 : 1e-14 ≤ s0) (hs1 : s0 ≤ 1e8)
    (hlo : 1e-28 ≤ lo) (hhi : hi ≤ 1e10) (hr : hi ≤ 1e20 * lo) (l : Fin w) (hf : ∀ i j, lo ≤ flux i j l ∧ flux i j l ≤ hi) :
    ∃ v, Rep (Gen.calc_rest_sed_sfh_table_met_table (fun j => Flt.lit (t j)) (fun j => Flt.lit (sfr j)) (fun j => Flt.lit (met j)) (Flt.lit scatter) (fun j => Flt.lit (mets j))
        (fun j => Flt.lit (ages j)) (fun i j l => Flt.lit (flux i j l)) (Flt.lit t_obs) (Flt.lit s0) l : Ranged R).x v ∧
      v ≤ 1.1 * hi * massTable t sfr s0 (Fin.last (n + 1)) ∧ ∀ j, t j + 1e-6 ≤ t_obs → 0.9 * lo * massTable t sfr s0 j ≤ v := by
  obtain ⟨u, hu, h0, h1, hs⟩ := weights_table hR heps G h
  exact spectrum_of_unit hR heps G hs0 hs1 hu h0 h1 hs hlo hhi hr l hf

/-! ### the magnitudes of the galaxy -/

variable {X : Fin (w + 2) → ℝ} {q : ℕ} {fw ft : Fin (q + 1) → ℝ} {c : Fin q} {z Om0 w0 wa hub : ℝ} {spec : Fin (w + 2) → Ranged float32} {gflux : Fin (k + 3) → Fin (m + 3) → Fin (w + 2) → ℝ}

/-- a rest-frame magnitude of a computed spectrum -/
theorem rest_mag_of (hX : WaveGrid float32 X) (hl : ∀ j, Btn 1e-20 1e3 (spec j)) (hb : Band fw ft 100 1e7 1e-3 1e-2 c)
    (h0 : X 0 ≤ fw c.castSucc) (h1 : fw c.castSucc ≤ X (Fin.last (w + 1))) :
    Bd 90 (Gen.calc_rest_mag (fun j => Flt.lit (X j)) spec (fun i => Flt.lit (fw i)) (fun i => Flt.lit (ft i)) : Ranged float32) := by
  have hR : BandFits float32 100 1e7 1e-3 1e-2 1e-20 1e3 := by
    constructor <;> first | apply tiny32 | apply max32 | skip
    all_goals norm_num
  have hs : Span float32 1e-20 1e3 := ⟨Or.inr (tiny32 (by norm_num)), max32 (by norm_num)⟩
  have hfw := fun i => hb.is hR.fwlo hR.fwhi i
  have hL := fun i => lum_btn' hX (fun j => is_lit (Or.inr (hX.in j))) hl hs (by norm_num) (hfw i)
  have hF := flux_btn hb hR (fun i => (hL i).1) ((hL c.castSucc).2 h0 h1)
  have := mag_bd (A := 36) hF (ab0_btn hb ab0_fits32 ab0_in32) (by norm_num) (by norm_num [AB0]) (tiny32 (by norm_num [AB0])) (max32 (by norm_num [AB0]))
    (by rw [Real.rpow_neg (by norm_num), show (36:ℝ) = ((36:ℕ):ℝ) by norm_num, Real.rpow_natCast]; norm_num [AB0])
    (by rw [show (36:ℝ) = ((36:ℕ):ℝ) by norm_num, Real.rpow_natCast]; norm_num [AB0]) (max32 (by norm_num)) (max32 (by norm_num))
  rw [show (2.5:ℝ) * 36 = 90 by norm_num] at this
  exact this

/-- an observed magnitude of a computed spectrum -/
theorem obs_mag_of (hX : WaveGrid float32 X) (hlast : X (Fin.last (w + 1)) ≤ 1e30) (hl : ∀ j, Btn 1e-20 1e3 (spec j)) (hb : Band fw ft 100 1e7 1e-3 1e-2 c)
    (H : OrdinaryCosmo Om0 w0 wa hub) (hz0 : 1e-6 ≤ z) (hz1 : z ≤ 1000) (h0 : X 0 * (1 + z) ≤ fw c.castSucc) (h1 : fw c.castSucc ≤ X (Fin.last (w + 1)) * (1 + z)) :
    Bd 315 (Gen.calc_obs_mag (fun j => Flt.lit (X j)) spec (fun i => Flt.lit (fw i)) (fun i => Flt.lit (ft i))
      (Flt.lit z) (Flt.lit Om0) (Flt.lit w0) (Flt.lit wa) (Flt.lit hub) : Ranged float32) := by
  obtain ⟨hG, hp⟩ := stretch_is wide32 hX hz0 hz1 hlast
  have hR : BandFits float32 100 1e7 1e-3 1e-2 1e-20 1e3 := by
    constructor <;> first | apply tiny32 | apply max32 | skip
    all_goals norm_num
  have hs : Span float32 1e-20 1e3 := ⟨Or.inr (tiny32 (by norm_num)), max32 (by norm_num)⟩
  have hfw := fun i => hb.is hR.fwlo hR.fwhi i
  have hL := fun i => lum_btn' hG hp hl hs (by norm_num) (hfw i)
  have hF := flux_btn hb hR (fun i => (hL i).1) ((hL c.castSucc).2 h0 h1)
  have := mag_bd (A := 36) hF (ab0_btn hb ab0_fits32 ab0_in32) (by norm_num) (by norm_num [AB0]) (tiny32 (by norm_num [AB0])) (max32 (by norm_num [AB0]))
    (by rw [Real.rpow_neg (by norm_num), show (36:ℝ) = ((36:ℕ):ℝ) by norm_num, Real.rpow_natCast]; norm_num [AB0])
    (by rw [show (36:ℝ) = ((36:ℕ):ℝ) by norm_num, Real.rpow_natCast]; norm_num [AB0]) (max32 (by norm_num)) (max32 (by norm_num))
  exact (this.add (dimming_bd wide32 H hz0 hz1) (max32 (by norm_num))).mono (by norm_num)

/-- **Specification.**  The fluxes of the populations are between `lo` and `hi`, and the mass formed by a tabulated time `t j` before the observation (and the whole mass of the table)
give luminosities between 1e-20 and 1e3 Lsun/Hz. -/
structure Visible (t sfr : Fin (n + 2) → ℝ) (s0 t_obs : ℝ) (flux : Fin (k + 3) → Fin (m + 3) → Fin (w + 2) → ℝ) (lo hi : ℝ) (j : Fin (n + 2)) : Prop where
  between : ∀ i a l, lo ≤ flux i a l ∧ flux i a l ≤ hi
  fainter : 1e-28 ≤ lo
  brighter : hi ≤ 1e10
  contrast : hi ≤ 1e20 * lo
  formed : t j + 1e-6 ≤ t_obs
  enough : 1e-20 ≤ 0.9 * lo * massTable t sfr s0 j
  limited : 1.1 * hi * massTable t sfr s0 (Fin.last (n + 1)) ≤ 1e3

/-- C164: the whole computation, from the star formation history to the rest-frame magnitude, neither overflows nor underflows to `inf` or nan in single precision. -/
theorem C164_rest_mag (heps : Jnp.Dtype.interpEps ≤ 1e-6) (G : OrdinaryGalaxy t sfr t_obs ages mets) (h : MetInside lgmet scatter) (hs0 : 1e-14 ≤ s0) (hs1 : s0 ≤ 1e8)
    {j : Fin (n + 2)} (V : Visible t sfr s0 t_obs gflux lo hi j) (hX : WaveGrid float32 X) (hb : Band fw ft 100 1e7 1e-3 1e-2 c)
    (h0 : X 0 ≤ fw c.castSucc) (h1 : fw c.castSucc ≤ X (Fin.last (w + 1))) :
    Bd 90 (Gen.calc_rest_mag (fun j => Flt.lit (X j)) (Gen.calc_rest_sed_sfh_table_lognormal_mdf (fun j => Flt.lit (t j)) (fun j => Flt.lit (sfr j)) (Flt.lit lgmet) (Flt.lit scatter)
      (fun j => Flt.lit (mets j)) (fun j => Flt.lit (ages j)) (fun i j l => Flt.lit (gflux i j l)) (Flt.lit t_obs) (Flt.lit s0))
      (fun i => Flt.lit (fw i)) (fun i => Flt.lit (ft i)) : Ranged float32) := by
  refine rest_mag_of hX (fun l => ?_) hb h0 h1
  obtain ⟨v, hv, hu, hd⟩ := C164_spectrum wide32 heps G h hs0 hs1 V.fainter V.brighter V.contrast l fun i a => V.between i a l
  exact ⟨v, hv, V.enough.trans (hd j V.formed), hu.trans V.limited⟩

/-- C164: the same for the observed magnitude, at every redshift between 1e-6 and 1000. -/
theorem C164_obs_mag (heps : Jnp.Dtype.interpEps ≤ 1e-6) (G : OrdinaryGalaxy t sfr t_obs ages mets) (h : MetInside lgmet scatter) (hs0 : 1e-14 ≤ s0) (hs1 : s0 ≤ 1e8)
    {j : Fin (n + 2)} (V : Visible t sfr s0 t_obs gflux lo hi j) (hX : WaveGrid float32 X) (hlast : X (Fin.last (w + 1)) ≤ 1e30) (hb : Band fw ft 100 1e7 1e-3 1e-2 c)
    (H : OrdinaryCosmo Om0 w0 wa hub) (hz0 : 1e-6 ≤ z) (hz1 : z ≤ 1000) (h0 : X 0 * (1 + z) ≤ fw c.castSucc) (h1 : fw c.castSucc ≤ X (Fin.last (w + 1)) * (1 + z)) :
    Bd 315 (Gen.calc_obs_mag (fun j => Flt.lit (X j)) (Gen.calc_rest_sed_sfh_table_lognormal_mdf (fun j => Flt.lit (t j)) (fun j => Flt.lit (sfr j)) (Flt.lit lgmet) (Flt.lit scatter)
      (fun j => Flt.lit (mets j)) (fun j => Flt.lit (ages j)) (fun i j l => Flt.lit (gflux i j l)) (Flt.lit t_obs) (Flt.lit s0))
      (fun i => Flt.lit (fw i)) (fun i => Flt.lit (ft i)) (Flt.lit z) (Flt.lit Om0) (Flt.lit w0) (Flt.lit wa) (Flt.lit hub) : Ranged float32) := by
  refine obs_mag_of hX hlast (fun l => ?_) hb H hz0 hz1 h0 h1
  obtain ⟨v, hv, hu, hd⟩ := C164_spectrum wide32 heps G h hs0 hs1 V.fainter V.brighter V.contrast l fun i a => V.between i a l
  exact ⟨v, hv, V.enough.trans (hd j V.formed), hu.trans V.limited⟩

/-- C164: and for a galaxy with a metallicity history. -/
theorem C164_obs_mag_met_table (heps : Jnp.Dtype.interpEps ≤ 1e-6) (G : OrdinaryGalaxy t sfr t_obs ages mets) (h : ∀ j, MetInside (met j) scatter) (hs0 : 1e-14 ≤ s0) (hs1 : s0 ≤ 1e8)
    {j : Fin (n + 2)} (V : Visible t sfr s0 t_obs gflux lo hi j) (hX : WaveGrid float32 X) (hlast : X (Fin.last (w + 1)) ≤ 1e30) (hb : Band fw ft 100 1e7 1e-3 1e-2 c)
    (H : OrdinaryCosmo Om0 w0 wa hub) (hz0 : 1e-6 ≤ z) (hz1 : z ≤ 1000) (h0 : X 0 * (1 + z) ≤ fw c.castSucc) (h1 : fw c.castSucc ≤ X (Fin.last (w + 1)) * (1 + z)) :
    Bd 315 (Gen.calc_obs_mag (fun j => Flt.lit (X j)) (Gen.calc_rest_sed_sfh_table_met_table (fun j => Flt.lit (t j)) (fun j => Flt.lit (sfr j)) (fun j => Flt.lit (met j)) (Flt.lit scatter)
      (fun j => Flt.lit (mets j)) (fun j => Flt.lit (ages j)) (fun i j l => Flt.lit (gflux i j l)) (Flt.lit t_obs) (Flt.lit s0))
      (fun i => Flt.lit (fw i)) (fun i => Flt.lit (ft i)) (Flt.lit z) (Flt.lit Om0) (Flt.lit w0) (Flt.lit wa) (Flt.lit hub) : Ranged float32) := by
  refine obs_mag_of hX hlast (fun l => ?_) hb H hz0 hz1 h0 h1
  obtain ⟨v, hv, hu, hd⟩ := C164_spectrum_met_table wide32 heps G h hs0 hs1 V.fainter V.brighter V.contrast l fun i a => V.between i a l
  exact ⟨v, hv, V.enough.trans (hd j V.formed), hu.trans V.limited⟩

end

/-! ### concrete cases: table 1, 10, 12, 13.5 Gyr; star formation 3, 0, 2, 1e-5 Msun/yr; the SSP grids of the other cases; observed at 13 Gyr -/

noncomputable def caseRT : Fin 4 → ℝ := ![1, 10, 12, 13.5]
noncomputable def caseRS : Fin 4 → ℝ := ![3, 0, 2, 1e-5]
/-- metallicity history, not monotone -/
noncomputable def caseRZ : Fin 4 → ℝ := ![-3, -2, 0, -1.5]
/-- spectra of the populations, Lsun/Hz/Msun -/
noncomputable def caseRF : Fin 5 → Fin 3 → Fin 3 → ℝ := fun i j l => 1e-15 * (1 + i + 2 * j) / (1 + l)

theorem caseR_history : OrdinaryHistory (n := 2) caseRT caseRS where
  first := by norm_num [caseRT]
  last := by simp [caseRT, Fin.last]; norm_num
  step := fun i => by fin_cases i <;> simp [caseRT] <;> norm_num
  rate := fun i => by fin_cases i <;> norm_num [caseRS]

theorem caseA_edge (i : Fin 4) : StellarAgeWeights.get_lg_age_bin_edges (m := 0) caseA i = -2.5 + i := by
  have h0 : StellarAgeWeights.get_lg_age_bin_edges (m := 0) caseA 0 = -2.5 := age_edges_example.1
  have h3 : StellarAgeWeights.get_lg_age_bin_edges (m := 0) caseA (Fin.last 3) = 0.5 := age_edges_example.2
  have h1 : StellarAgeWeights.get_lg_age_bin_edges (m := 0) caseA (0 : Fin 2).succ.castSucc = -1.5 := by
    rw [lg_age_edges_eq, edges_succ, show Utils.jax_get_dt_array caseA (0 : Fin 2).succ = 1 from C06_uniform (n := 0) (-2) 1 _]
    norm_num [caseA]
  have h2 : StellarAgeWeights.get_lg_age_bin_edges (m := 0) caseA (1 : Fin 2).succ.castSucc = -0.5 := by
    rw [lg_age_edges_eq, edges_succ, show Utils.jax_get_dt_array caseA (1 : Fin 2).succ = 1 from C06_uniform (n := 0) (-2) 1 _]
    norm_num [caseA]
  fin_cases i
  · exact h0.trans (by norm_num)
  · exact h1.trans (by norm_num)
  · exact h2.trans (by norm_num)
  · exact h3.trans (by norm_num)

theorem caseA_grid : AgeGrid (m := 0) caseA where
  card := by norm_num
  mid := fun i => by fin_cases i <;> norm_num [caseA]
  edge := fun i => by rw [caseA_edge]; fin_cases i <;> norm_num
  inc := fun i => by rw [caseA_edge, caseA_edge]; fin_cases i <;> norm_num

theorem caseZ_edge (i : Fin 6) : Utils.get_bin_edges (n := 2) caseZ (-10) 10 i = ![-10, -3.75, -3.25, -2.75, -2.25, 10] i := by
  have hm : ∀ j : Fin 4, Utils.get_bin_edges (n := 2) caseZ (-10) 10 j.succ.castSucc = -4 + ((j.succ : Fin 5) : ℕ) * 0.5 - 0.5 / 2 := fun j => by
    rw [edges_succ, show Utils.jax_get_dt_array caseZ j.succ = 0.5 from C06_uniform (n := 2) (-4) 0.5 _]
    rfl
  fin_cases i
  · exact (edges_zero ..).trans (by simp)
  · exact (hm 0).trans (by simp; norm_num)
  · exact (hm 1).trans (by simp; norm_num)
  · exact (hm 2).trans (by simp; norm_num)
  · exact (hm 3).trans (by simp; norm_num)
  · exact (edges_last ..).trans (by simp)

theorem caseZ_grid : MetGrid (k := 2) caseZ where
  card := by norm_num
  mid := fun i => by fin_cases i <;> norm_num [caseZ]
  inc := fun i => by rw [caseZ_edge, caseZ_edge]; fin_cases i <;> simp <;> norm_num

theorem caseR_sees : SeesCell (n := 2) (m := 0) caseRT caseA 13 := by
  refine ⟨1, ?_, ?_⟩
  · rw [caseA_edge]
    have h : (10:ℝ) ^ ((0.5:ℝ)) = √10 := by rw [Real.sqrt_eq_rpow]; norm_num
    have h2 : (3.1:ℝ) ≤ √10 := Real.le_sqrt_of_sq_le (by norm_num)
    have e : -2.5 + (((Fin.last (0 + 3) : Fin 4) : ℕ) : ℝ) = 0.5 := by simp [Fin.last]; norm_num
    rw [e, h]
    simp [caseRT]
    linarith
  · rw [caseA_edge]
    have : (10:ℝ) ^ (-2.5 + (((0 : Fin 4) : ℕ) : ℝ)) ≤ (10:ℝ) ^ ((-2 : ℤ) : ℝ) := Real.rpow_le_rpow_of_exponent_le (by norm_num) (by norm_num)
    rw [ten_zpow] at this
    have e : caseRT (1 : Fin 3).succ = 12 := by simp [caseRT]
    rw [e]
    norm_num at *; linarith

theorem caseR_galaxy : OrdinaryGalaxy (n := 2) (m := 0) (k := 2) caseRT caseRS 13 caseA caseZ :=
  ⟨caseR_history, caseA_grid, caseZ_grid, ⟨by norm_num, by norm_num⟩, caseR_sees⟩

theorem caseR_met : MetInside (-2.6) 0.2 := ⟨by norm_num, by norm_num, by norm_num⟩
theorem caseR_mets (j : Fin 4) : MetInside (caseRZ j) 0.2 := by
  fin_cases j <;> constructor <;> norm_num [caseRZ]

theorem caseR_mass : massTable (n := 2) caseRT caseRS 1e-14 1 = Utils.cumulative_mstar_formed caseRT (fun j => max 1e-14 (caseRS j)) 1 ∧
    1e9 ≤ massTable (n := 2) caseRT caseRS 1e-14 1 ∧ massTable (n := 2) caseRT caseRS 1e-14 (Fin.last 3) ≤ 1e11 := by
  have e2 : ∀ g : Fin 4 → ℝ, (Fin.cons (α := fun _ => ℝ) (1 / 100000000000000) g : Fin 5 → ℝ) 2 = g 1 := fun g => rfl
  have e3 : ∀ g : Fin 4 → ℝ, (Fin.cons (α := fun _ => ℝ) (1 / 100000000000000) g : Fin 5 → ℝ) 3 = g 2 := fun g => rfl
  have e4 : ∀ g : Fin 4 → ℝ, (Fin.cons (α := fun _ => ℝ) (1 / 100000000000000) g : Fin 5 → ℝ) 4 = g 3 := fun g => rfl
  have v2 : (![3, 0, 2, 1 / 100000] : Fin 4 → ℝ) 2 = 2 := rfl
  have v3 : (![3, 0, 2, 1 / 100000] : Fin 4 → ℝ) 3 = 1 / 100000 := rfl
  refine ⟨rfl, ?_, ?_⟩
  · unfold massTable Utils.cumulative_mstar_formed Jnp.tail
    rw [cumtrapz_succ, show (1 : Fin 4).castSucc = (0 : Fin 4).succ from rfl, cumtrapz_succ]
    simp [cumtrapz_zero, Jnp.setTail, Jnp.setAt, Jnp.zeros, caseRT, caseRS, Constants.T_BIRTH_MIN, Constants.SFR_MIN, Utils.YEAR_PER_GYR]
    norm_num [e2, e3, e4, v2, v3]
  · unfold massTable Utils.cumulative_mstar_formed Jnp.tail
    rw [cumtrapz_succ, show (Fin.last 3).castSucc = (2 : Fin 4).succ from rfl, cumtrapz_succ, show (2 : Fin 4).castSucc = (1 : Fin 4).succ from rfl, cumtrapz_succ,
      show (1 : Fin 4).castSucc = (0 : Fin 4).succ from rfl, cumtrapz_succ]
    simp [cumtrapz_zero, Jnp.setTail, Jnp.setAt, Jnp.zeros, caseRT, caseRS, Constants.T_BIRTH_MIN, Constants.SFR_MIN, Utils.YEAR_PER_GYR, Fin.last]
    norm_num [e2, e3, e4, v2, v3]

theorem caseR_visible : Visible (n := 2) (k := 2) (m := 0) (w := 1) caseRT caseRS 1e-14 13 caseRF 1e-16 1e-14 1 where
  between := fun i a l => by fin_cases i <;> fin_cases a <;> fin_cases l <;> norm_num [caseRF]
  fainter := by norm_num
  brighter := by norm_num
  contrast := by norm_num
  formed := by norm_num [caseRT]
  enough := by have := caseR_mass.2.1; norm_num at *; linarith
  limited := by have := caseR_mass.2.2; norm_num at *; linarith

section
attribute [local instance] Jnp.Dtype.float32

theorem eps32 : Jnp.Dtype.interpEps ≤ 1e-6 := by show (2:ℝ)⁻¹ ^ 46 ≤ _; norm_num

/-- C164 applied -/
example := C164_weights wide32 eps32 caseR_galaxy caseR_met
example := C164_weights_met_table wide32 eps32 caseR_galaxy caseR_mets
example := C164_spectrum wide32 eps32 caseR_galaxy caseR_met (s0 := 1e-14) (by norm_num) (by norm_num) (flux := caseRF) (lo := 1e-16) (hi := 1e-14) (by norm_num) (by norm_num)
  (by norm_num) 0 fun i a => caseR_visible.between i a 0
example := C164_spectrum_met_table wide32 eps32 caseR_galaxy caseR_mets (s0 := 1e-14) (by norm_num) (by norm_num) (flux := caseRF) (lo := 1e-16) (hi := 1e-14) (by norm_num)
  (by norm_num) (by norm_num) 0 fun i a => caseR_visible.between i a 0
example := C164_rest_mag eps32 caseR_galaxy caseR_met (by norm_num) (by norm_num) caseR_visible case_grid32 case_band (case_cover _).1 (case_cover _).2
example := C164_obs_mag eps32 caseR_galaxy caseR_met (by norm_num) (by norm_num) caseR_visible case_grid32 (by norm_num [caseWave, Fin.last]) case_band case_ordinary (z := 1 / 2)
  (by norm_num) (by norm_num) (case_cover_z _).1 (case_cover_z _).2
example := C164_obs_mag_met_table eps32 caseR_galaxy caseR_mets (by norm_num) (by norm_num) caseR_visible case_grid32 (by norm_num [caseWave, Fin.last]) case_band case_ordinary
  (z := 1 / 2) (by norm_num) (by norm_num) (case_cover_z _).1 (case_cover_z _).2
end

end Dsps.Props
