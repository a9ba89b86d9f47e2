import Verif.Lemmas.RangeAge

/-! Age and metallicity weights on floats with a finite range. -/
namespace Dsps.Lemmas
open XF Range Dsps.Props Dsps.Constants

variable {R : Range} {a b : Ranged R} {y z A B : ℝ} {n m k p q : ℕ}

/-- normalising nearly the exact sum -/
theorem is_normalised (hR : Wide R) {x : Fin n → Ranged R} {v : Fin n → ℝ} {S' : Ranged R} {S δ : ℝ} (hn : n ≤ 10 ^ 6) (hx : ∀ i, Is (x i) (v i)) (hS : Is S' S)
    (hS0 : 1e-9 ≤ S) (hv : ∀ i, |v i| ≤ 1e25) (hd : |S - ∑ i, v i| ≤ δ) :
    (∀ i, Is (x i / S') (fl R (v i / S))) ∧ |∑ i, fl R (v i / S) - 1| ≤ δ * 1e9 + n * R.tiny := by
  have hM := hR.max
  have hp : 0 < S := by linarith
  have hδ : 0 ≤ δ := (abs_nonneg _).trans hd
  refine ⟨fun i => (hx i).divF hS hp.ne' ?_, ?_⟩
  · rw [abs_div, abs_of_pos hp]
    have := div_le_div₀ (by norm_num) (hv i) (by norm_num) hS0
    refine this.trans (le_trans (by norm_num) hM)
  · have h1 : |∑ i, fl R (v i / S) - ∑ i, v i / S| ≤ n * R.tiny := by
      rw [← Finset.sum_sub_distrib]
      refine (Finset.abs_sum_le_sum_abs _ _).trans ((Finset.sum_le_sum fun i _ => fl_near (R := R) (v i / S)).trans ?_)
      simp
    have h2 : |∑ i, v i / S - 1| ≤ δ * 1e9 := by
      rw [← Finset.sum_div, show (∑ i, v i) / S - 1 = -((S - ∑ i, v i) / S) by field_simp; ring, abs_neg, abs_div, abs_of_pos hp]
      rw [div_le_iff₀ hp]
      refine hd.trans ?_
      nlinarith
    have := abs_sub_le (∑ i, fl R (v i / S)) (∑ i, v i / S) 1
    linarith

/-- **Specification.**  The grids of stellar ages considered: at most 1000 ages, log10(age/Gyr) at most 20 in magnitude, bin edges that increase by a millionth. -/
structure AgeGrid (a : Fin (m + 3) → ℝ) : Prop where
  card : m + 3 ≤ 1000
  mid : ∀ i, |a i| ≤ 20
  edge : ∀ i, |StellarAgeWeights.get_lg_age_bin_edges a i| ≤ 20
  inc : ∀ i : Fin (m + 3), StellarAgeWeights.get_lg_age_bin_edges a i.castSucc + 1e-6 ≤ StellarAgeWeights.get_lg_age_bin_edges a i.succ

/-- **Specification.**  A whole cell of the table of times lies between the births of the oldest and of the youngest stars of the grid. -/
def SeesCell (t : Fin (n + 2) → ℝ) (a : Fin (m + 3) → ℝ) (t_obs : ℝ) : Prop :=
  ∃ j : Fin (n + 1), t_obs - (10:ℝ) ^ StellarAgeWeights.get_lg_age_bin_edges a (Fin.last (m + 3)) + 1e-6 ≤ t j.castSucc ∧
    t j.succ + 1e-6 ≤ t_obs - (10:ℝ) ^ StellarAgeWeights.get_lg_age_bin_edges a 0

section
variable [Jnp.Dtype] {t sfr : Fin (n + 2) → ℝ} {s0 t_obs : ℝ} {ages : Fin (m + 3) → ℝ}

theorem range_age_weights (hR : Wide R) (heps : Jnp.Dtype.interpEps ≤ 1e-6) (H : OrdinaryHistory t sfr) (h0 : 1e-14 ≤ s0) (h1 : s0 ≤ 1e8)
    (G : AgeGrid ages) (ht0 : 0.01 ≤ t_obs) (ht1 : t_obs ≤ 100) (hsee : SeesCell t ages t_obs) :
    ∃ v : Fin (m + 3) → ℝ, (∀ i, Is (Gen.calc_age_weights_from_sfh_table (fun j => (Flt.lit (t j) : Ranged R)) (fun j => Flt.lit (sfr j)) (fun j => Flt.lit (ages j))
      (Flt.lit t_obs) (Flt.lit s0) i) (v i)) ∧ (∀ i, 0 ≤ v i) ∧ |∑ i, v i - 1| ≤ 1e-24 := by
  have hM := hR.max
  have ht := R.tiny_pos
  have htl := hR.tiny
  obtain ⟨e, he, hd, hmono⟩ := edges_anti hR (nr_age_edges hR fun i => (G.mid i).trans (by norm_num))
  have hmono := hmono G.inc
  have heb : ∀ i, |e i| ≤ 30 := fun i => by
    have := abs_sub_abs_le_abs_sub (e i) (StellarAgeWeights.get_lg_age_bin_edges ages i)
    have h2 := G.edge i; have h3 := hd i
    norm_num at h3; linarith
  set mass : Fin (m + 4) → ℝ := fun i => massF R t sfr s0 (birthF R t_obs (e i)) with hmass
  have hmi : ∀ i, Is (Flt.exp10 (Gen.interp (Gen.get_lgt_birth (Flt.lit t_obs) (Gen.get_lg_age_bin_edges (fun j => (Flt.lit (ages j) : Ranged R)) i))
      (fun i => Flt.log10 (Flt.lit (t i))) (Gen.calc_logsm_table_from_sfh_table (fun j => (Flt.lit (t j) : Ranged R)) (fun j => Flt.lit (sfr j)) (Flt.lit s0)))) (mass i) :=
    fun i => is_massF hR heps H h0 h1 (is_birthF hR ht0 ht1 (he i) (heb i))
  have hb := fun i => massF_bounds hR heps H h0 h1 (birthF R t_obs (e i))
  have hanti : ∀ i : Fin (m + 3), mass i.succ ≤ mass i.castSucc := fun i => massF_mono hR heps H h0 h1 (birthF_anti (hmono i))
  -- the first and the last mass
  have hgap : 5e-9 ≤ mass 0 - mass (Fin.last (m + 3)) := by
    obtain ⟨j, hj0, hj1⟩ := hsee
    have p0 := abs_le.1 (ten_pert (hd 0) (G.edge 0))
    have p1 := abs_le.1 (ten_pert (hd (Fin.last (m + 3))) (G.edge _))
    have f0 := fl_ge (R := R) (t_obs - (10:ℝ) ^ e 0)
    have f1 := fl_le' (R := R) (t_obs - (10:ℝ) ^ e (Fin.last (m + 3)))
    have a0 : massTable t sfr s0 j.succ - 1e-30 ≤ mass 0 := massF_ge hR heps H h0 h1 (by
      refine fl_logb_lt hR (by linarith [H.lo j.succ]) (le_trans ?_ (le_max_right _ _)) (birth_arg ht1 _).2
      norm_num at *; linarith)
    have a1 : mass (Fin.last (m + 3)) ≤ massTable t sfr s0 j.castSucc + 1e-30 := massF_le hR heps H h0 h1 (by
      refine fl_logb_lt hR (lt_of_lt_of_le (by norm_num) (le_max_left _ _)) ?_ (by linarith [H.hi j.castSucc])
      rcases max_choice 0.001 (fl R (t_obs - (10:ℝ) ^ e (Fin.last (m + 3)))) with h | h <;> rw [h]
      · linarith [H.lo j.castSucc]
      · norm_num at *; linarith)
    have a2 := (is_masses hR H h0 h1).2 j
    norm_num at *; linarith
  -- the differences
  have hdi : ∀ i : Fin (m + 3), Is (-(Gen.diff (fun i => Flt.exp10 (Gen.interp (Gen.get_lgt_birth (Flt.lit t_obs) (Gen.get_lg_age_bin_edges (fun j => (Flt.lit (ages j) : Ranged R)) i))
      (fun i => Flt.log10 (Flt.lit (t i))) (Gen.calc_logsm_table_from_sfh_table (fun j => (Flt.lit (t j) : Ranged R)) (fun j => Flt.lit (sfr j)) (Flt.lit s0)))) i))
      (-(fl R (mass i.succ - mass i.castSucc))) := fun i =>
    ((hmi i.succ).subF (hmi i.castSucc) (by
      have := hb i.succ; have := hb i.castSucc
      simp only [hmass]
      rw [abs_le]; constructor <;> linarith)).neg
  have hd0 : ∀ i : Fin (m + 3), 0 ≤ -(fl R (mass i.succ - mass i.castSucc)) := fun i => by
    have := fl_mono (R := R) (show mass i.succ - mass i.castSucc ≤ 0 by linarith [hanti i])
    rw [fl_zero] at this; linarith
  have hd1 : ∀ i : Fin (m + 3), -(fl R (mass i.succ - mass i.castSucc)) ≤ mass i.castSucc - mass i.succ := fun i => by
    have := (abs_le.1 (fl_abs (R := R) (mass i.succ - mass i.castSucc))).1
    rw [abs_of_nonpos (by linarith [hanti i])] at this; linarith
  have hdn : ∀ i : Fin (m + 3), mass i.castSucc - mass i.succ - R.tiny ≤ -(fl R (mass i.succ - mass i.castSucc)) := fun i => by
    linarith [fl_le' (R := R) (mass i.succ - mass i.castSucc)]
  have htel : ∑ i : Fin (m + 3), (mass i.castSucc - mass i.succ) = mass 0 - mass (Fin.last (m + 3)) := sum_telescope' mass
  have hsum0 : mass 0 - mass (Fin.last (m + 3)) - (m + 3 : ℕ) * R.tiny ≤ ∑ i : Fin (m + 3), -(fl R (mass i.succ - mass i.castSucc)) := by
    rw [← htel]
    have := Finset.sum_le_sum fun i (_ : i ∈ Finset.univ) => hdn i
    rw [Finset.sum_sub_distrib] at this
    simpa using this
  have hsum1 : ∑ i : Fin (m + 3), -(fl R (mass i.succ - mass i.castSucc)) ≤ mass 0 - mass (Fin.last (m + 3)) := by
    rw [← htel]; exact Finset.sum_le_sum fun i _ => hd1 i
  have hb0 := hb 0; have hbl := hb (Fin.last (m + 3))
  have hmax : ∑ i : Fin (m + 3), |-(fl R (mass i.succ - mass i.castSucc))| ≤ 1e19 := by
    rw [Finset.sum_congr rfl fun i _ => abs_of_nonneg (hd0 i)]
    refine hsum1.trans ?_
    simp only [hmass]; linarith
  have hcard : ((m + 3 : ℕ) : ℝ) * R.tiny ≤ 1.2e-35 := by
    have h1 : ((m + 3 : ℕ) : ℝ) ≤ 1000 := by exact_mod_cast G.card
    calc ((m + 3 : ℕ) : ℝ) * R.tiny ≤ 1000 * 1.2e-38 := mul_le_mul h1 htl ht.le (by norm_num)
      _ = _ := by norm_num
  obtain ⟨S, hS, hSd, -⟩ := is_sum hdi (hmax.trans (by linarith))
  have hSd' := abs_le.1 hSd
  have hS0 : 1e-9 ≤ S := by norm_num at *; linarith
  obtain ⟨w1, w2⟩ := is_normalised hR (by have := G.card; omega) hdi hS hS0 (fun i =>
    (Finset.single_le_sum (f := fun i : Fin (m + 3) => |-(fl R (mass i.succ - mass i.castSucc))|) (fun _ _ => abs_nonneg _) (Finset.mem_univ i)).trans (hmax.trans (by norm_num))) hSd
  refine ⟨_, w1, fun i => fl_nonneg (div_nonneg (hd0 i) (by linarith)), w2.trans ?_⟩
  norm_num at hcard ⊢; linarith

/-- the stellar mass at the time of observation -/
theorem range_mstar (hR : Wide R) (heps : Jnp.Dtype.interpEps ≤ 1e-6) (H : OrdinaryHistory t sfr) (h0 : 1e-14 ≤ s0) (h1 : s0 ≤ 1e8)
    (ht0 : 0.01 ≤ t_obs) (ht1 : t_obs ≤ 100) :
    ∃ v, Is (Gen.mstar_obs (fun j => (Flt.lit (t j) : Ranged R)) (fun j => Flt.lit (sfr j)) (Flt.lit t_obs) (Flt.lit s0)) v ∧ 0 < v ∧
      v ≤ 1.01 * massTable t sfr s0 (Fin.last (n + 1)) ∧ ∀ j, t j + 1e-6 ≤ t_obs → 0.99 * massTable t sfr s0 j ≤ v := by
  refine ⟨_, is_massF hR heps H h0 h1 (is_lgt hR (by linarith) (by linarith)), by unfold massF; positivity, ?_, fun j hj => ?_⟩
  · have := massF_le_last hR heps H h0 h1 (fl R (Real.logb 10 t_obs))
    have := ((is_masses hR H h0 h1).1 (Fin.last (n + 1))).2.1
    norm_num at *; linarith
  · have := massF_ge hR heps H h0 h1 (x := fl R (Real.logb 10 t_obs)) (j := j) (fl_logb_lt hR (by linarith [H.lo j]) (by linarith) (by linarith))
    have := ((is_masses hR H h0 h1).1 j).2.1
    norm_num at *; linarith

end

end Dsps.Lemmas
