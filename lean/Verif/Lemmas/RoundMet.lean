import Verif.Lemmas.RoundSed
import Verif.Lemmas.Triweight
import Verif.Props.SspWeights

/-! Error propagation through the triweight kernel, normalisations, products and weighted sums in machine arithmetic. -/
namespace Dsps.Lemmas
open Fl Jnp Dsps.Constants

variable {A : Arith} {n m k : ℕ} {v : ℝ}

/-! ### normalisation, in the sum norm -/

/-- error of a machine sum of numbers of total `Δ`, known up to `E` in the sum norm -/
noncomputable def sumErr (A : Arith) (d : ℕ) (E Δ : ℝ) : ℝ := E + ((1 / (1 - A.u)) ^ d - 1) * (Δ + E)

/-- error, in the sum norm, of the normalised numbers -/
noncomputable def normErr (A : Arith) (d : ℕ) (E Δ : ℝ) : ℝ :=
  (1 + A.u) * ((E + sumErr A d E Δ) / (Δ - sumErr A d E Δ)) + A.u

lemma sumErr_nonneg {d : ℕ} {E Δ : ℝ} (hE : 0 ≤ E) (hΔ : 0 ≤ Δ) : 0 ≤ sumErr A d E Δ := by
  unfold sumErr; have := G_pow_nonneg A d; positivity

lemma sum_err {ι : Type*} [DecidableEq ι] [Fintype ι] {d : ℕ} {x x0 : ι → ℝ} (h0 : ∀ i, 0 ≤ x0 i) {E : ℝ}
    (hE : ∑ i, |x i - x0 i| ≤ E) {s : ℝ} (hs : s ∈ A.sum d x) : |s - ∑ i, x0 i| ≤ sumErr A d E (∑ i, x0 i) := by
  have near : Near A (0 + d) s (∑ i, x i) (∑ i, |x i|) := sum_near (fun i => Near.refl le_rfl) hs
  rw [zero_add] at near
  have hx : ∑ i, |x i| ≤ (∑ i, x0 i) + E := by
    calc ∑ i, |x i| ≤ ∑ i, (x0 i + |x i - x0 i|) := Finset.sum_le_sum fun i _ => by
          have := abs_sub_abs_le_abs_sub (x i) (x0 i)
          rw [abs_of_nonneg (h0 i)] at this; linarith
      _ = (∑ i, x0 i) + ∑ i, |x i - x0 i| := Finset.sum_add_distrib
      _ ≤ _ := by linarith
  have h1 : |(∑ i, x i) - ∑ i, x0 i| ≤ E := by
    rw [← Finset.sum_sub_distrib]; exact (Finset.abs_sum_le_sum_abs _ _).trans hE
  have h2 := abs_sub_le s (∑ i, x i) (∑ i, x0 i)
  have h3 := mul_le_mul_of_nonneg_left hx (G_pow_nonneg A d)
  unfold sumErr
  linarith [near.2]

lemma normalize_l1 {ι : Type*} [DecidableEq ι] [Fintype ι] {d : ℕ} {x x0 out : ι → ℝ} (h0 : ∀ i, 0 ≤ x0 i) {E : ℝ}
    (hE : ∑ i, |x i - x0 i| ≤ E) {s : ℝ} (hs : s ∈ A.sum d x) (ho : out ∈ vec fun i => A.div (x i) s)
    (hσ : sumErr A d E (∑ i, x0 i) < ∑ i, x0 i) :
    ∑ i, |out i - x0 i / ∑ j, x0 j| ≤ normErr A d E (∑ i, x0 i) := by
  have hu := A.u_nonneg
  have hsΔ := sum_err h0 hE hs
  have hE0 : 0 ≤ E := (Finset.sum_nonneg fun i _ => abs_nonneg _).trans hE
  set Δ := ∑ i, x0 i with hΔ
  have hΔ0 : 0 ≤ Δ := Finset.sum_nonneg fun i _ => h0 i
  have hσ0 := sumErr_nonneg (A := A) (d := d) hE0 hΔ0
  have hΔp : 0 < Δ := hσ0.trans_lt hσ
  have hden : 0 < Δ - sumErr A d E Δ := by linarith
  have hsp : Δ - sumErr A d E Δ ≤ s := by have := (abs_le.1 hsΔ).1; linarith
  have hs0 : 0 < s := hden.trans_le hsp
  have hw : ∑ i, x0 i / Δ = 1 := by rw [← Finset.sum_div, div_self hΔp.ne']
  have hw0 : ∀ i, 0 ≤ x0 i / Δ := fun i => div_nonneg (h0 i) hΔ0
  have q : ∑ i, |x i / s - x0 i / Δ| ≤ (E + sumErr A d E Δ) / (Δ - sumErr A d E Δ) := by
    have e : ∀ i, |x i / s - x0 i / Δ| ≤ (|x i - x0 i| + x0 i / Δ * |s - Δ|) / s := fun i => by
      have e1 : x i / s - x0 i / Δ = ((x i - x0 i) - x0 i / Δ * (s - Δ)) / s := by field_simp; ring
      rw [e1, abs_div, abs_of_pos hs0]
      refine div_le_div_of_nonneg_right ((abs_sub _ _).trans ?_) hs0.le
      rw [abs_mul, abs_of_nonneg (hw0 i)]
    calc ∑ i, |x i / s - x0 i / Δ| ≤ ∑ i, (|x i - x0 i| + x0 i / Δ * |s - Δ|) / s := Finset.sum_le_sum fun i _ => e i
      _ = (∑ i, |x i - x0 i| + |s - Δ|) / s := by
        rw [← Finset.sum_div, Finset.sum_add_distrib, ← Finset.sum_mul, hw, one_mul]
      _ ≤ (E + sumErr A d E Δ) / (Δ - sumErr A d E Δ) :=
        div_le_div₀ (by linarith) (add_le_add hE hsΔ) hden hsp
  have r : ∀ i, |out i - x0 i / Δ| ≤ (1 + A.u) * |x i / s - x0 i / Δ| + A.u * (x0 i / Δ) := fun i => by
    have h1 := A.rel _ _ (ho i)
    have h2 := abs_sub_le (out i) (x i / s) (x0 i / Δ)
    have h3 := abs_sub_abs_le_abs_sub (x i / s) (x0 i / Δ)
    rw [abs_of_nonneg (hw0 i)] at h3
    nlinarith
  calc ∑ i, |out i - x0 i / Δ| ≤ ∑ i, ((1 + A.u) * |x i / s - x0 i / Δ| + A.u * (x0 i / Δ)) := Finset.sum_le_sum fun i _ => r i
    _ = (1 + A.u) * ∑ i, |x i / s - x0 i / Δ| + A.u := by
      rw [Finset.sum_add_distrib, ← Finset.mul_sum, ← Finset.mul_sum, hw, mul_one]
    _ ≤ normErr A d E Δ := by
      unfold normErr
      have := mul_le_mul_of_nonneg_left q (show 0 ≤ 1 + A.u by linarith)
      linarith

/-! ### the kernel -/

lemma intPow_near {z : ℝ} {k : ℕ} {r : ℝ} (h : Rounded.IntPow A z k r) : 1 ≤ k ∧ Near A (k - 1) r (z ^ k) (|z| ^ k) := by
  induction h with
  | one => exact ⟨le_rfl, by simpa using Near.refl le_rfl⟩
  | mul _ _ hr h1 h2 =>
    obtain ⟨i1, n1⟩ := h1
    obtain ⟨j1, n2⟩ := h2
    refine ⟨by omega, ?_⟩
    have := n1.mulR n2 hr
    rw [← pow_add, ← pow_add] at this
    exact this.mono (by omega)

lemma Near.cmul {k : ℕ} {x' x M c r : ℝ} (h : Near A k x' x M) (hr : r ∈ A.mul c x') : Near A (k + 1) r (c * x) (|c| * M) := by
  have := (Near.refl (A := A) (le_refl |c|)).mulR h hr
  rwa [zero_add] at this

lemma Near.cdiv {k : ℕ} {x' x M c r : ℝ} (h : Near A k x' x M) (hc : 0 ≤ c) (hr : r ∈ A.div x' c) : Near A (k + 1) r (x / c) (M / c) := by
  have := h.divR hc (Within'.refl hc) hr
  rwa [add_zero] at this

/-- the polynomial part of the kernel -/
lemma kern_poly_near {z z7 z5 z3 a7 b7 a5 b5 a3 b3 a1 b1 s1 s2 s3 val : ℝ} (hz : |z| ≤ 3) (h7 : Rounded.IntPow A z 7 z7)
    (h5 : Rounded.IntPow A z 5 z5) (h3 : Rounded.IntPow A z 3 z3) (ha7 : a7 ∈ A.mul (-5) z7) (hb7 : b7 ∈ A.div a7 69984)
    (ha5 : a5 ∈ A.mul 7 z5) (hb5 : b5 ∈ A.div a5 2592) (ha3 : a3 ∈ A.mul 35 z3) (hb3 : b3 ∈ A.div a3 864) (ha1 : a1 ∈ A.mul 35 z)
    (hb1 : b1 ∈ A.div a1 96) (hs1 : s1 ∈ A.add b7 b5) (hs2 : s2 ∈ A.sub s1 b3) (hs3 : s3 ∈ A.add s2 b1) (hv : val ∈ A.add s3 (1 / 2)) :
    |val - twP z| ≤ ((1 / (1 - A.u)) ^ 12 - 1) * 3.5 := by
  have p : ∀ k : ℕ, |z| ^ k ≤ 3 ^ k := fun k => pow_le_pow_left₀ (abs_nonneg z) hz k
  have n7 := (((intPow_near h7).2.mono_M (p 7)).cmul ha7).cdiv (by norm_num) hb7
  have n5 := (((intPow_near h5).2.mono_M (p 5)).cmul ha5).cdiv (by norm_num) hb5
  have n3 := (((intPow_near h3).2.mono_M (p 3)).cmul ha3).cdiv (by norm_num) hb3
  have n1 := ((Near.refl (A := A) hz).cmul ha1).cdiv (by norm_num) hb1
  have q1 := n7.addR n5 hs1
  have q2 := q1.subR' n3 hs2
  have q3 := q2.addR n1 hs3
  have q4 := q3.addR (Near.refl (A := A) (show |(1:ℝ) / 2| ≤ 1 / 2 by norm_num)) hv
  have := (q4.mono (show _ ≤ 12 by simp)).2
  unfold twP
  refine this.trans (mul_le_mul_of_nonneg_left ?_ (G_pow_nonneg A 12))
  norm_num

lemma twc_le (z : ℝ) : |twc z| ≤ 35 / 96 := by
  rw [abs_of_nonneg (twc_nonneg z)]
  unfold twc twp
  split_ifs with h
  · norm_num
  · push Not at h
    have h0 : 0 ≤ 1 - (z / 3) ^ 2 := by nlinarith
    have h1 : 1 - (z / 3) ^ 2 ≤ 1 := by nlinarith [sq_nonneg (z / 3)]
    have := pow_le_one₀ (n := 3) h0 h1
    linarith

lemma twC_lipschitz (y z : ℝ) : |twC y - twC z| ≤ 35 / 96 * |y - z| := by
  have := Convex.norm_image_sub_le_of_norm_hasDerivWithin_le (f := twC) (f' := twc) (s := Set.univ) (C := 35 / 96)
    (x := z) (y := y) (fun x _ => (hasDerivAt_twC x).hasDerivWithinAt) (fun x _ => by rw [Real.norm_eq_abs]; exact twc_le x) convex_univ
    (Set.mem_univ _) (Set.mem_univ _)
  simpa [Real.norm_eq_abs] using this

/-- error of the kernel for an argument whose numerator is off by `η` -/
noncomputable def kernErr (A : Arith) (η h : ℝ) : ℝ :=
  ((1 / (1 - A.u)) ^ 12 - 1) * 3.5 + 35 / 96 * (4 * ((1 / (1 - A.u)) ^ 2 - 1)) + 35 / 96 * (η / h)

lemma kern_err {x' m' x m h η r : ℝ} (hh : 0 < h) (hη : |(x' - m') - (x - m)| ≤ η) (hu : (1 / (1 - A.u)) ^ 2 - 1 ≤ 1 / 4)
    (hr : r ∈ Rounded.tw_cuml_kern A x' m' h) : |r - Utils.tw_cuml_kern x m h| ≤ kernErr A η h := by
  obtain ⟨d, hd, z, hz, z7, h7, z5, h5, z3, h3, a7, ha7, b7, hb7, a5, ha5, b5, hb5, a3, ha3, b3, hb3, a1, ha1, b1, hb1, s1, hs1, s2, hs2,
    s3, hs3, val, hval, rfl⟩ := hr
  rw [tw_cuml_kern_eq]
  set y := (x' - m') / h with hy
  have e1 : |(if z > 3 then 1 else if z < -3 then 0 else val) - twC z| ≤ ((1 / (1 - A.u)) ^ 12 - 1) * 3.5 := by
    unfold twC
    have := G_pow_nonneg A 12
    split_ifs with h1 h2
    · rw [sub_self, abs_zero]; positivity
    · rw [sub_self, abs_zero]; positivity
    · exact kern_poly_near (abs_le.2 ⟨not_lt.1 h2, not_lt.1 h1⟩) h7 h5 h3 ha7 hb7 ha5 hb5 ha3 hb3 ha1 hb1 hs1 hs2 hs3 hval
  have nz : |z - y| ≤ ((1 / (1 - A.u)) ^ 2 - 1) * |y| := by
    have := (((Near.refl (A := A) (le_refl |x' - m'|)).rnd hd).cdiv hh.le hz).2
    rw [hy, abs_div, abs_of_pos hh]; simpa using this
  have hG := G_pow_nonneg A 2
  have e2 : |twC z - twC y| ≤ 35 / 96 * (4 * ((1 / (1 - A.u)) ^ 2 - 1)) := by
    rcases le_or_gt |y| 4 with hy4 | hy4
    · refine (twC_lipschitz z y).trans (mul_le_mul_of_nonneg_left (nz.trans ?_) (by norm_num))
      rw [mul_comm]; exact mul_le_mul_of_nonneg_right hy4 hG
    · have hb := nz.trans (mul_le_mul_of_nonneg_right hu (abs_nonneg y))
      have : twC z = twC y := by
        rcases le_total 0 y with h0 | h0
        · rw [abs_of_nonneg h0] at hb hy4
          have := (abs_le.1 hb).1
          rw [twC_of_ge (by linarith : 3 ≤ z), twC_of_ge (by linarith : 3 ≤ y)]
        · rw [abs_of_nonpos h0] at hb hy4
          have := (abs_le.1 hb).2
          rw [twC_of_le (by linarith : z ≤ -3), twC_of_le (by linarith : y ≤ -3)]
      rw [this, sub_self, abs_zero]; positivity
  have e3 : |twC y - twC ((x - m) / h)| ≤ 35 / 96 * (η / h) := by
    refine (twC_lipschitz _ _).trans (mul_le_mul_of_nonneg_left ?_ (by norm_num))
    rw [hy, ← sub_div, abs_div, abs_of_pos hh]
    exact div_le_div_of_nonneg_right hη hh.le
  have t1 := abs_sub_le (if z > 3 then 1 else if z < -3 then 0 else val) (twC z) (twC y)
  have t2 := abs_sub_le (if z > 3 then 1 else if z < -3 then 0 else val) (twC y) (twC ((x - m) / h))
  unfold kernErr
  linarith

/-! ### metallicity weights -/

lemma met_edges_near {a : Fin (m + 3) → ℝ} {B lo hi : ℝ} (hB : ∀ i, |a i| ≤ B) (hlo : |lo| ≤ 5 / 2 * B) (hhi : |hi| ≤ 5 / 2 * B)
    {out : Fin (m + 4) → ℝ} (h : out ∈ Rounded.get_bin_edges A a lo hi) (i : Fin (m + 4)) :
    Near A 8 (out i) (Utils.get_bin_edges a lo hi i) (5 / 2 * B) := by
  obtain ⟨dt, hdt, hf, hhf, l, hl, rfl⟩ := h
  have hB0 : 0 ≤ B := (abs_nonneg _).trans (hB 0)
  have whf := fun i => (dt_near hB hdt i).halfR (hhf i)
  have e1 : B + 3 * B / 2 = 5 / 2 * B := by ring
  have wlo : ∀ i, Near A 8 (l i) (a i - Utils.jax_get_dt_array a i / 2) (5 / 2 * B) := fun i => by
    have := (Near.refl (A := A) (hB i)).subR' (whf i) (hl i)
    rw [e1] at this
    exact this.mono (by simp)
  unfold Utils.get_bin_edges
  refine rel_setAt (R := fun x' x => Near A 8 x' x (5 / 2 * B)) (fun i => rel_setAt (R := fun x' x => Near A 8 x' x (5 / 2 * B))
    (fun i => ?_) 0 ((Near.refl hlo).mono (by norm_num)) i) (Fin.last (m + 3)) ((Near.refl hhi).mono (by norm_num)) i
  exact rel_setInit (R := fun x' x => Near A 8 x' x (5 / 2 * B)) (near_zero (by linarith)) wlo i

/-- error, in the sum norm, of `N` differences of numbers off by `μ` and of exact total `Δ` -/
noncomputable def diffErr (A : Arith) (N : ℕ) (μ Δ : ℝ) : ℝ := 2 * N * ((1 + A.u) * μ) + A.u * Δ

lemma diff_l1 {N : ℕ} {a0 b0 a b x : Fin N → ℝ} {μ : ℝ} (h0 : ∀ i, b0 i ≤ a0 i) (ha : ∀ i, |a i - a0 i| ≤ μ) (hb : ∀ i, |b i - b0 i| ≤ μ)
    (hx : ∀ i, |x i - (a i - b i)| ≤ A.u * |a i - b i|) :
    ∑ i, |x i - (a0 i - b0 i)| ≤ diffErr A N μ (∑ i, (a0 i - b0 i)) := by
  have hu := A.u_nonneg
  have key : ∀ i, |x i - (a0 i - b0 i)| ≤ 2 * ((1 + A.u) * μ) + A.u * (a0 i - b0 i) := fun i => by
    have e : (a i - b i) - (a0 i - b0 i) = (a i - a0 i) - (b i - b0 i) := by ring
    have h1 : |(a i - b i) - (a0 i - b0 i)| ≤ 2 * μ := by
      rw [e]; have := abs_sub (a i - a0 i) (b i - b0 i); linarith [ha i, hb i]
    have h2 := abs_sub_abs_le_abs_sub (a i - b i) (a0 i - b0 i)
    rw [abs_of_nonneg (sub_nonneg.2 (h0 i))] at h2
    have h3 := abs_sub_le (x i) (a i - b i) (a0 i - b0 i)
    have h4 := hx i
    nlinarith
  refine (Finset.sum_le_sum fun i _ => key i).trans ?_
  rw [Finset.sum_add_distrib, ← Finset.mul_sum, Finset.sum_const, Finset.card_univ, Fintype.card_fin, nsmul_eq_mul]
  unfold diffErr; rw [Finset.mul_sum]; linarith

end Dsps.Lemmas
