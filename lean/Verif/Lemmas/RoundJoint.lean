import Verif.Lemmas.RoundMet

/-! Error propagation through the joint weights and the weighted sum of SSP fluxes, in the sum norm. -/
namespace Dsps.Lemmas
open Fl Jnp

variable {A : Arith} {n m w : ℕ}

lemma normErr_scale {d : ℕ} {c E : ℝ} (hc : 0 < c) : normErr A d (c * E) c = normErr A d E 1 := by
  unfold normErr
  have e : sumErr A d (c * E) c = c * sumErr A d E 1 := by unfold sumErr; ring
  rw [e, ← mul_add, show c - c * sumErr A d E 1 = c * (1 - sumErr A d E 1) by ring, mul_div_mul_left _ _ hc.ne']

/-- error, in the sum norm, of the normalised joint weights -/
noncomputable def jointErr (A : Arith) (d : ℕ) (e1 e2 : ℝ) : ℝ := normErr A d ((1 + A.u) * (1 + e1) * (1 + e2) - 1) 1

lemma product_l1 {lg lg0 : Fin m → Fin n → ℝ} {age age0 : Fin n → ℝ} (hlg : ∀ i j, 0 ≤ lg0 i j) (hage : ∀ j, 0 ≤ age0 j) {c : ℝ}
    (hc : 0 ≤ c) (hcol : ∀ j, ∑ i, lg0 i j = c) (hsum : ∑ j, age0 j = 1) {e1 e2 : ℝ} (h1 : ∀ j, ∑ i, |lg i j - lg0 i j| ≤ c * e1)
    (h2 : ∑ j, |age j - age0 j| ≤ e2) {p : Fin m × Fin n → ℝ} (hp : p ∈ vec fun ij : Fin m × Fin n => A.mul (lg ij.1 ij.2) (age ij.2)) :
    ∑ ij, |p ij - lg0 ij.1 ij.2 * age0 ij.2| ≤ c * ((1 + A.u) * (1 + e1) * (1 + e2) - 1) := by
  have hu := A.u_nonneg
  have term : ∀ i j, |p (i, j) - lg0 i j * age0 j| ≤
      (1 + A.u) * ((|lg i j - lg0 i j| + lg0 i j) * (|age j - age0 j| + age0 j)) - lg0 i j * age0 j := fun i j => by
    have r1 : |p (i, j) - lg i j * age j| ≤ A.u * |lg i j * age j| := A.rel _ _ (hp (i, j))
    have a1 : |lg i j| ≤ |lg i j - lg0 i j| + lg0 i j := by
      have := abs_sub_abs_le_abs_sub (lg i j) (lg0 i j); rw [abs_of_nonneg (hlg i j)] at this; linarith
    have a2 : |age j| ≤ |age j - age0 j| + age0 j := by
      have := abs_sub_abs_le_abs_sub (age j) (age0 j); rw [abs_of_nonneg (hage j)] at this; linarith
    have r2 : |lg i j * age j| ≤ (|lg i j - lg0 i j| + lg0 i j) * (|age j - age0 j| + age0 j) := by
      rw [abs_mul]; exact mul_le_mul a1 a2 (abs_nonneg _) ((abs_nonneg _).trans a1)
    have r3 : |lg i j * age j - lg0 i j * age0 j| ≤ (|lg i j - lg0 i j| + lg0 i j) * (|age j - age0 j| + age0 j) - lg0 i j * age0 j := by
      have e : lg i j * age j - lg0 i j * age0 j =
        (lg i j - lg0 i j) * (age j - age0 j) + ((lg i j - lg0 i j) * age0 j + lg0 i j * (age j - age0 j)) := by ring
      rw [e]
      refine (abs_add_le _ _).trans ?_
      have b1 := abs_add_le ((lg i j - lg0 i j) * age0 j) (lg0 i j * (age j - age0 j))
      rw [abs_mul, abs_mul, abs_of_nonneg (hage j), abs_of_nonneg (hlg i j)] at b1
      rw [abs_mul]; nlinarith
    have r4 := mul_le_mul_of_nonneg_left r2 hu
    have r5 := abs_sub_le (p (i, j)) (lg i j * age j) (lg0 i j * age0 j)
    linarith
  have he1 : ∀ j, ∑ i, (|lg i j - lg0 i j| + lg0 i j) ≤ c * (1 + e1) := fun j => by
    rw [Finset.sum_add_distrib, hcol]; linarith [h1 j]
  have he2 : ∑ j, (|age j - age0 j| + age0 j) ≤ 1 + e2 := by
    rw [Finset.sum_add_distrib, hsum]; linarith
  have big : ∑ i, ∑ j, (|lg i j - lg0 i j| + lg0 i j) * (|age j - age0 j| + age0 j) ≤ c * (1 + e1) * (1 + e2) := by
    rw [Finset.sum_comm]
    simp only [← Finset.sum_mul]
    refine (Finset.sum_le_sum fun j _ => mul_le_mul_of_nonneg_right (he1 j) (add_nonneg (abs_nonneg _) (hage j))).trans ?_
    rw [← Finset.mul_sum]
    rcases Nat.eq_zero_or_pos n with hn | hn
    · subst hn; simp at hsum
    · have h0 : 0 ≤ c * (1 + e1) := (Finset.sum_nonneg fun i _ => add_nonneg (abs_nonneg _) (hlg i ⟨0, hn⟩)).trans (he1 ⟨0, hn⟩)
      exact mul_le_mul_of_nonneg_left he2 h0
  have small : ∑ i, ∑ j, lg0 i j * age0 j = c := by
    rw [Finset.sum_comm]
    simp only [← Finset.sum_mul, hcol]
    rw [← Finset.mul_sum, hsum, mul_one]
  rw [Fintype.sum_prod_type]
  refine (Finset.sum_le_sum fun i _ => Finset.sum_le_sum fun j _ => term i j).trans ?_
  simp only [Finset.sum_sub_distrib, ← Finset.mul_sum]
  rw [small]
  have := mul_le_mul_of_nonneg_left big (show 0 ≤ 1 + A.u by linarith)
  linarith

lemma joint_l1 {lg lg0 : Fin m → Fin n → ℝ} {age age0 : Fin n → ℝ} (hlg : ∀ i j, 0 ≤ lg0 i j) (hage : ∀ j, 0 ≤ age0 j) {c : ℝ}
    (hc : 0 < c) (hcol : ∀ j, ∑ i, lg0 i j = c) (hsum : ∑ j, age0 j = 1) {e1 e2 : ℝ} (h1 : ∀ j, ∑ i, |lg i j - lg0 i j| ≤ c * e1)
    (h2 : ∑ j, |age j - age0 j| ≤ e2) {d : ℕ} (hd : sumErr A d ((1 + A.u) * (1 + e1) * (1 + e2) - 1) 1 < 1) {wt : Fin m × Fin n → ℝ}
    (hw : wt ∈ Rounded.ssp_weights A d lg age) :
    ∑ ij, |wt ij - lg0 ij.1 ij.2 * age0 ij.2 / ∑ i, ∑ j, lg0 i j * age0 j| ≤ jointErr A d e1 e2 := by
  obtain ⟨p, hp, s, hs, ho⟩ := hw
  have hE := product_l1 hlg hage hc.le hcol hsum h1 h2 hp
  have small : ∑ ij : Fin m × Fin n, lg0 ij.1 ij.2 * age0 ij.2 = c := by
    rw [Fintype.sum_prod_type, Finset.sum_comm]
    simp only [← Finset.sum_mul, hcol]
    rw [← Finset.mul_sum, hsum, mul_one]
  have hσ : sumErr A d (c * ((1 + A.u) * (1 + e1) * (1 + e2) - 1)) c < c := by
    have e : sumErr A d (c * ((1 + A.u) * (1 + e1) * (1 + e2) - 1)) c = c * sumErr A d ((1 + A.u) * (1 + e1) * (1 + e2) - 1) 1 := by
      unfold sumErr; ring
    rw [e]; have := mul_lt_mul_of_pos_left hd hc; linarith
  have := normalize_l1 (x0 := fun ij : Fin m × Fin n => lg0 ij.1 ij.2 * age0 ij.2) (fun ij => mul_nonneg (hlg _ _) (hage _)) hE hs ho
    (by rw [small]; exact hσ)
  rw [small, normErr_scale hc] at this
  rw [show ∑ i, ∑ j, lg0 i j * age0 j = c by rw [← small, Fintype.sum_prod_type]]
  exact this

/-- error of an SED relative to the brightest SSP times the mass: joint weights off by `e`, mass off by a fraction `ρ` -/
noncomputable def sedErr (A : Arith) (d : ℕ) (e ρ : ℝ) : ℝ := (1 + A.u) * (1 / (1 - A.u)) ^ (d + 1) * (1 + e) * (1 + ρ) - 1

lemma sed_l1 {flux : Fin m → Fin n → Fin w → ℝ} {F : ℝ} (l : Fin w) (hF : ∀ i j, |flux i j l| ≤ F) {wt wt0 : Fin m × Fin n → ℝ}
    (h0 : ∀ ij, 0 ≤ wt0 ij) (hsum : ∑ ij, wt0 ij = 1) {e : ℝ} (he : ∑ ij, |wt ij - wt0 ij| ≤ e) {M M0 ρ : ℝ} (hM0 : 0 ≤ M0)
    (hM : |M - M0| ≤ ρ * M0) {d : ℕ} {out : Fin w → ℝ} (ho : out ∈ Rounded.rest_sed A d flux wt M) :
    |out l - (∑ ij : Fin m × Fin n, flux ij.1 ij.2 l * wt0 ij) * M0| ≤ sedErr A d e ρ * (F * M0) := by
  obtain ⟨p, hp, s, hs, ho⟩ := ho
  have hu := A.u_nonneg
  have hwt : ∑ ij, |wt ij| ≤ 1 + e := by
    refine (Finset.sum_le_sum fun ij _ => ?_).trans (show ∑ ij, (|wt ij - wt0 ij| + wt0 ij) ≤ 1 + e by
      rw [Finset.sum_add_distrib, hsum]; linarith)
    have := abs_sub_abs_le_abs_sub (wt ij) (wt0 ij); rw [abs_of_nonneg (h0 ij)] at this; linarith
  have hn : Nonempty (Fin m × Fin n) := by
    by_contra hc
    rw [not_nonempty_iff] at hc
    rw [Fintype.sum_empty] at hsum; exact zero_ne_one hsum
  obtain ⟨⟨i0, j0⟩⟩ := hn
  have hF0 : 0 ≤ F := (abs_nonneg _).trans (hF i0 j0)
  have he0 : 0 ≤ e := (Finset.sum_nonneg fun ij _ => abs_nonneg _).trans he
  have np : ∀ ij : Fin m × Fin n, Near A 1 (p (l, ij)) (flux ij.1 ij.2 l * wt ij) (F * |wt ij|) := fun ij => by
    have hle : |flux ij.1 ij.2 l * wt ij| ≤ F * |wt ij| := by rw [abs_mul]; exact mul_le_mul_of_nonneg_right (hF _ _) (abs_nonneg _)
    exact (Near.refl (A := A) hle).rnd (hp (l, ij))
  have ns := (sum_near np (hs l)).2
  rw [← Finset.mul_sum] at ns
  set S0 := ∑ ij : Fin m × Fin n, flux ij.1 ij.2 l * wt0 ij with hS0
  set S1 := ∑ ij : Fin m × Fin n, flux ij.1 ij.2 l * wt ij with hS1
  have hS0F : |S0| ≤ F := by
    refine (Finset.abs_sum_le_sum_abs _ _).trans ?_
    refine (Finset.sum_le_sum fun ij _ => show |flux ij.1 ij.2 l * wt0 ij| ≤ F * wt0 ij from ?_).trans ?_
    · rw [abs_mul, abs_of_nonneg (h0 ij)]; exact mul_le_mul_of_nonneg_right (hF _ _) (h0 ij)
    · rw [← Finset.mul_sum, hsum, mul_one]
  have h10 : |S1 - S0| ≤ F * e := by
    rw [hS0, hS1, ← Finset.sum_sub_distrib]
    refine (Finset.abs_sum_le_sum_abs _ _).trans ?_
    refine (Finset.sum_le_sum fun ij _ => show |flux ij.1 ij.2 l * wt ij - flux ij.1 ij.2 l * wt0 ij| ≤ F * |wt ij - wt0 ij| from ?_).trans ?_
    · rw [← mul_sub, abs_mul]; exact mul_le_mul_of_nonneg_right (hF _ _) (abs_nonneg _)
    · rw [← Finset.mul_sum]; exact mul_le_mul_of_nonneg_left he hF0
  have hG := G_pow_nonneg A (1 + d)
  unfold sedErr
  rw [show d + 1 = 1 + d by omega]
  set G := (1 / (1 - A.u)) ^ (1 + d) with hGd
  have hs1 : |s l - S0| ≤ F * (G * (1 + e) - 1) := by
    have a1 := abs_sub_le (s l) S1 S0
    have a2 := mul_le_mul_of_nonneg_left (mul_le_mul_of_nonneg_left hwt hF0) hG
    have : F * (G * (1 + e) - 1) = (G - 1) * (F * (1 + e)) + F * e := by ring
    rw [this]; linarith
  have hMabs : |M| ≤ (1 + ρ) * M0 := by
    have := abs_sub_abs_le_abs_sub M M0; rw [abs_of_nonneg hM0] at this; linarith
  have hX0 : 0 ≤ F * (G * (1 + e) - 1) := (abs_nonneg _).trans hs1
  have r1 : |s l * M - S0 * M0| ≤ F * M0 * (G * (1 + e) * (1 + ρ) - 1) := by
    have e1 : s l * M - S0 * M0 = (s l - S0) * M + S0 * (M - M0) := by ring
    rw [e1]
    refine (abs_add_le _ _).trans ?_
    rw [abs_mul, abs_mul]
    have b1 := mul_le_mul hs1 hMabs (abs_nonneg _) hX0
    have b2 := mul_le_mul hS0F hM (abs_nonneg _) hF0
    have : F * M0 * (G * (1 + e) * (1 + ρ) - 1) = F * (G * (1 + e) - 1) * ((1 + ρ) * M0) + F * (ρ * M0) := by ring
    rw [this]; linarith
  have r2 := A.rel _ _ (ho l)
  have r3 : |s l * M| ≤ F * M0 * (G * (1 + e) * (1 + ρ)) := by
    have b := abs_sub_abs_le_abs_sub (s l * M) (S0 * M0)
    have b2 : |S0 * M0| ≤ F * M0 := by rw [abs_mul, abs_of_nonneg hM0]; exact mul_le_mul_of_nonneg_right hS0F hM0
    have : F * M0 * (G * (1 + e) * (1 + ρ)) = F * M0 * (G * (1 + e) * (1 + ρ) - 1) + F * M0 := by ring
    rw [this]; linarith
  have r4 := mul_le_mul_of_nonneg_left r3 hu
  have r5 := abs_sub_le (out l) (s l * M) (S0 * M0)
  have : ((1 + A.u) * G * (1 + e) * (1 + ρ) - 1) * (F * M0) =
    A.u * (F * M0 * (G * (1 + e) * (1 + ρ))) + F * M0 * (G * (1 + e) * (1 + ρ) - 1) := by ring
  rw [this]; linarith

lemma weights_l1 {N d : ℕ} {M M' : Fin (N + 1) → ℝ} {μ : ℝ} (hM : Antitone M) (hμ : ∀ i, |M' i - M i| ≤ μ) {df : Fin N → ℝ}
    (hdf : df ∈ vec fun i : Fin N => A.sub (tail M' i) (init M' i)) {out : Fin N → ℝ} (ho : out ∈ Rounded.normalize A d fun i => -df i)
    (hpos : sumErr A d (diffErr A N μ (M 0 - M (Fin.last N))) (M 0 - M (Fin.last N)) < M 0 - M (Fin.last N)) :
    ∑ i, |out i - (M i.castSucc - M i.succ) / (M 0 - M (Fin.last N))| ≤
      normErr A d (diffErr A N μ (M 0 - M (Fin.last N))) (M 0 - M (Fin.last N)) := by
  obtain ⟨s, hs, ho⟩ := ho
  have hsum : ∑ i : Fin N, (M i.castSucc - M i.succ) = M 0 - M (Fin.last N) := sum_telescope' M
  have hE := diff_l1 (A := A) (a0 := fun i : Fin N => M i.castSucc) (b0 := fun i => M i.succ) (a := fun i => M' i.castSucc)
    (b := fun i => M' i.succ) (x := fun i => -df i) (μ := μ) (fun i => hM (Fin.castSucc_lt_succ (i := i)).le) (fun i => hμ _) (fun i => hμ _)
    (fun i => by
      have := A.rel _ _ (hdf i)
      have e1 : tail M' i - init M' i = -(M' i.castSucc - M' i.succ) := by simp only [tail, init]; ring
      rw [e1, abs_neg] at this
      have e2 : -df i - (M' i.castSucc - M' i.succ) = -(df i - -(M' i.castSucc - M' i.succ)) := by ring
      rw [e2, abs_neg]; exact this)
  rw [hsum] at hE
  have := normalize_l1 (x0 := fun i : Fin N => M i.castSucc - M i.succ) (fun i => sub_nonneg.2 (hM (Fin.castSucc_lt_succ (i := i)).le)) hE hs ho
    (by rw [hsum]; exact hpos)
  rw [hsum] at this
  exact this

end Dsps.Lemmas
