import Verif.Props.EquivalentWidth
import Verif.Lemmas.Svd
import Verif.Cases

/-! C116: the continuum fit and the singular value cutoff of `jnp.linalg.lstsq`. -/
namespace Dsps.Props
open Jnp Dsps.Utils Dsps.EquivalentWidth Dsps.Lemmas Spec Matrix
open scoped BigOperators

variable {n : ℕ}

/-- column norms of the weighted Vandermonde matrix -/
noncomputable def colNorm (x w : Fin n → ℝ) (k : Fin 3) : ℝ := Real.sqrt (∑ i, vander3 x i k * w i * (vander3 x i k * w i))

/-- the matrix of the scaled fit -/
noncomputable def design (x w : Fin n → ℝ) : Matrix (Fin n) (Fin 3) ℝ := fun i k => vander3 x i k * w i / colNorm x w k

lemma fit_eq (f : Lstsq n) (x y w : Fin n → ℝ) (k : Fin 3) :
    weighted_quadratic_fit f x y w k = f (design x w) (fun i => y i * w i) k / colNorm x w k := rfl

lemma design_mulVec (x w : Fin n → ℝ) (v : Fin 3 → ℝ) (l : Fin n) :
    (design x w *ᵥ v) l = (v 0 / colNorm x w 0 * x l ^ 2 + v 1 / colNorm x w 1 * x l + v 2 / colNorm x w 2) * w l := by
  simp only [mulVec, dotProduct, Fin.sum_univ_three, vander3, design]
  simp
  ring

lemma colNorm_pos {x w : Fin n → ℝ} {i : Fin n} (hw : w i ≠ 0) (hx : x i ≠ 0) (k : Fin 3) : 0 < colNorm x w k :=
  Real.sqrt_pos.2 (Finset.sum_pos' (fun l _ => mul_self_nonneg _)
    ⟨i, Finset.mem_univ _, mul_self_pos.2 (mul_ne_zero (pow_ne_zero _ hx) hw)⟩)

lemma colNorm_sq (x w : Fin n → ℝ) (k : Fin 3) : colNorm x w k ^ 2 = ∑ i, (vander3 x i k * w i) ^ 2 := by
  rw [colNorm, Real.sq_sqrt (Finset.sum_nonneg fun l _ => mul_self_nonneg _)]
  exact Finset.sum_congr rfl fun i _ => (pow_two _).symm

lemma design_frobenius {x w : Fin n → ℝ} (h : ∀ k, 0 < colNorm x w k) : ∑ i, ∑ k, design x w i k ^ 2 = 3 := by
  rw [Finset.sum_comm]
  have : ∀ k, ∑ i, design x w i k ^ 2 = 1 := fun k => by
    simp only [design, div_pow, ← Finset.sum_div]
    rw [← colNorm_sq, div_self (pow_pos (h k) 2).ne']
  simp only [this]; simp

/-- three values bound the coefficients of a quadratic polynomial -/
lemma lagrange_bound {a b c X δ q0 q1 q2 : ℝ} (hδ : 0 < δ) (ha : |a| ≤ X) (hb : |b| ≤ X) (hc : |c| ≤ X) (hab : δ ≤ |a - b|) (hbc : δ ≤ |b - c|)
    (hac : δ ≤ |a - c|) :
    δ ^ 4 * (q2 ^ 2 * X ^ 4 + q1 ^ 2 * X ^ 2 + q0 ^ 2) ≤
      18 * X ^ 4 * ((q0 + q1 * a + q2 * a ^ 2) ^ 2 + (q0 + q1 * b + q2 * b ^ 2) ^ 2 + (q0 + q1 * c + q2 * c ^ 2) ^ 2) := by
  have hX : 0 ≤ X := (abs_nonneg _).trans ha
  have n1 : a - b ≠ 0 := by intro h; rw [h, abs_zero] at hab; linarith
  have n2 : b - c ≠ 0 := by intro h; rw [h, abs_zero] at hbc; linarith
  have n3 : a - c ≠ 0 := by intro h; rw [h, abs_zero] at hac; linarith
  set pa := q0 + q1 * a + q2 * a ^ 2 with hpa
  set pb := q0 + q1 * b + q2 * b ^ 2 with hpb
  set pc := q0 + q1 * c + q2 * c ^ 2 with hpc
  set A := pa / ((a - b) * (a - c)) with hA
  set B := pb / ((a - b) * (b - c)) with hB
  set C := pc / ((a - c) * (b - c)) with hC
  have e2 : q2 = A - B + C := by rw [hA, hB, hC, hpa, hpb, hpc]; field_simp; ring
  have e1 : q1 = -(A * (b + c)) + B * (a + c) - C * (a + b) := by rw [hA, hB, hC, hpa, hpb, hpc]; field_simp; ring
  have e0 : q0 = A * (b * c) - B * (a * c) + C * (a * b) := by rw [hA, hB, hC, hpa, hpb, hpc]; field_simp; ring
  have bd : ∀ {p u v : ℝ}, δ ≤ |u| → δ ≤ |v| → δ ^ 2 * |p / (u * v)| ≤ |p| := fun {p u v} hu hv => by
    rw [abs_div, abs_mul]
    have huv : 0 < |u| * |v| := mul_pos (hδ.trans_le hu) (hδ.trans_le hv)
    rw [mul_div_assoc', div_le_iff₀ huv, mul_comm]
    refine mul_le_mul_of_nonneg_left ?_ (abs_nonneg _)
    rw [pow_two]; exact mul_le_mul hu hv hδ.le (abs_nonneg _)
  have bA := bd (p := pa) hab hac
  have bB := bd (p := pb) hab hbc
  have bC := bd (p := pc) hac hbc
  rw [← hA] at bA; rw [← hB] at bB; rw [← hC] at bC
  set P := |pa| + |pb| + |pc| with hP
  have hP0 : 0 ≤ P := by positivity
  have hS : δ ^ 2 * (|A| + |B| + |C|) ≤ P := by linarith
  have s2 : δ ^ 2 * |q2| ≤ P := by
    refine le_trans (mul_le_mul_of_nonneg_left ?_ (by positivity)) hS
    rw [e2]
    exact (abs_add_le _ _).trans (by linarith [abs_sub A B])
  have tri : ∀ u v w : ℝ, |u + v - w| ≤ |u| + |v| + |w| := fun u v w => (abs_sub _ _).trans (by linarith [abs_add_le u v])
  have s1 : δ ^ 2 * |q1| ≤ 2 * X * P := by
    have h1 : |q1| ≤ (|A| + |B| + |C|) * (2 * X) := by
      rw [e1]
      refine (tri _ _ _).trans ?_
      rw [abs_neg, abs_mul, abs_mul, abs_mul]
      have k1 := mul_le_mul_of_nonneg_left (show |b + c| ≤ 2 * X by linarith [abs_add_le b c]) (abs_nonneg A)
      have k2 := mul_le_mul_of_nonneg_left (show |a + c| ≤ 2 * X by linarith [abs_add_le a c]) (abs_nonneg B)
      have k3 := mul_le_mul_of_nonneg_left (show |a + b| ≤ 2 * X by linarith [abs_add_le a b]) (abs_nonneg C)
      linarith
    have h2 := mul_le_mul_of_nonneg_left h1 (show 0 ≤ δ ^ 2 by positivity)
    have h3 := mul_le_mul_of_nonneg_right hS (show 0 ≤ 2 * X by positivity)
    linarith
  have s0 : δ ^ 2 * |q0| ≤ X ^ 2 * P := by
    have pr : ∀ {u v : ℝ}, |u| ≤ X → |v| ≤ X → |u * v| ≤ X ^ 2 := fun hu hv => by
      rw [abs_mul, pow_two]; exact mul_le_mul hu hv (abs_nonneg _) hX
    have h1 : |q0| ≤ (|A| + |B| + |C|) * X ^ 2 := by
      rw [e0]
      refine (abs_add_le _ _).trans ?_
      have := abs_sub (A * (b * c)) (B * (a * c))
      have k1 := mul_le_mul_of_nonneg_left (pr hb hc) (abs_nonneg A)
      have k2 := mul_le_mul_of_nonneg_left (pr ha hc) (abs_nonneg B)
      have k3 := mul_le_mul_of_nonneg_left (pr ha hb) (abs_nonneg C)
      rw [abs_mul A, abs_mul B] at this
      rw [abs_mul C]
      linarith
    have h2 := mul_le_mul_of_nonneg_left h1 (show 0 ≤ δ ^ 2 by positivity)
    have h3 := mul_le_mul_of_nonneg_right hS (show 0 ≤ X ^ 2 by positivity)
    linarith
  have t2 := pow_le_pow_left₀ (by positivity) s2 2
  have t1 := pow_le_pow_left₀ (by positivity) s1 2
  have t0 := pow_le_pow_left₀ (by positivity) s0 2
  simp only [mul_pow, sq_abs] at t2 t1 t0
  have hP2 : P ^ 2 ≤ 3 * (pa ^ 2 + pb ^ 2 + pc ^ 2) := by
    have h1 := sq_nonneg (|pa| - |pb|)
    have h2 := sq_nonneg (|pb| - |pc|)
    have h3 := sq_nonneg (|pa| - |pc|)
    rw [hP, ← sq_abs pa, ← sq_abs pb, ← sq_abs pc]
    linarith
  have u2 := mul_le_mul_of_nonneg_right t2 (show 0 ≤ X ^ 4 by positivity)
  have u1 := mul_le_mul_of_nonneg_right t1 (show 0 ≤ X ^ 2 by positivity)
  have u := mul_le_mul_of_nonneg_left hP2 (show 0 ≤ 6 * X ^ 4 by positivity)
  linarith

/-- lower bound of the scaled design matrix -/
lemma design_lower {x w : Fin n → ℝ} {X δ : ℝ} (hδ : 0 < δ) (hw : ∀ i, w i = 0 ∨ w i = 1) (hX : ∀ i, w i ≠ 0 → |x i| ≤ X) {i j k : Fin n}
    (hi : w i ≠ 0) (hj : w j ≠ 0) (hk : w k ≠ 0) (hij : δ ≤ |x i - x j|) (hjk : δ ≤ |x j - x k|) (hik : δ ≤ |x i - x k|) (v : Fin 3 → ℝ) :
    δ ^ 4 * (v ⬝ᵥ v) ≤ 18 * n * X ^ 4 * ((design x w *ᵥ v) ⬝ᵥ (design x w *ᵥ v)) := by
  have h1 : ∀ l, w l ≠ 0 → w l = 1 := fun l h => (hw l).resolve_left h
  have hx : ∃ l, w l ≠ 0 ∧ x l ≠ 0 := by
    by_cases h : x i = 0
    · refine ⟨j, hj, fun h' => ?_⟩
      rw [h, h', sub_self, abs_zero] at hij; linarith
    · exact ⟨i, hi, h⟩
  obtain ⟨l, hl, hl'⟩ := hx
  have hp := colNorm_pos (x := x) hl hl'
  have hX0 : 0 ≤ X := (abs_nonneg _).trans (hX i hi)
  set q2 := v 0 / colNorm x w 0
  set q1 := v 1 / colNorm x w 1
  set q0 := v 2 / colNorm x w 2
  have hv : v ⬝ᵥ v = q2 ^ 2 * colNorm x w 0 ^ 2 + q1 ^ 2 * colNorm x w 1 ^ 2 + q0 ^ 2 * colNorm x w 2 ^ 2 := by
    simp only [dotProduct, Fin.sum_univ_three, q2, q1, q0, div_pow]
    rw [div_mul_cancel₀ _ (pow_pos (hp 0) 2).ne', div_mul_cancel₀ _ (pow_pos (hp 1) 2).ne', div_mul_cancel₀ _ (pow_pos (hp 2) 2).ne']
    ring
  have hcol : ∀ (c : Fin 3), colNorm x w c ^ 2 ≤ n * X ^ (2 * (2 - (c:ℕ))) := fun c => by
    rw [colNorm_sq]
    have : ∀ l ∈ Finset.univ, (vander3 x l c * w l) ^ 2 ≤ X ^ (2 * (2 - (c:ℕ))) := fun l _ => by
      rcases hw l with h | h
      · rw [h, mul_zero, zero_pow two_ne_zero]; positivity
      · rw [h, mul_one, vander3, ← pow_mul, mul_comm, pow_mul, pow_mul, ← sq_abs]
        exact pow_le_pow_left₀ (by positivity) (pow_le_pow_left₀ (abs_nonneg _) (hX l (by rw [h]; exact one_ne_zero)) 2) _
    refine (Finset.sum_le_card_nsmul _ _ _ this).trans ?_
    simp
  have c0 := hcol 0
  have c1 := hcol 1
  have c2 := hcol 2
  norm_num at c0 c1 c2
  have key := lagrange_bound (q0 := q0) (q1 := q1) (q2 := q2) hδ (hX i hi) (hX j hj) (hX k hk) hij hjk hik
  have hAv : ∀ l, w l ≠ 0 → (design x w *ᵥ v) l = q0 + q1 * x l + q2 * x l ^ 2 := fun l hl => by
    rw [design_mulVec, h1 l hl]; simp only [q0, q1, q2]; ring
  have nij : i ≠ j := by rintro rfl; rw [sub_self, abs_zero] at hij; linarith
  have njk : j ≠ k := by rintro rfl; rw [sub_self, abs_zero] at hjk; linarith
  have nik : i ≠ k := by rintro rfl; rw [sub_self, abs_zero] at hik; linarith
  have hsum : (q0 + q1 * x i + q2 * x i ^ 2) ^ 2 + (q0 + q1 * x j + q2 * x j ^ 2) ^ 2 + (q0 + q1 * x k + q2 * x k ^ 2) ^ 2 ≤
      (design x w *ᵥ v) ⬝ᵥ (design x w *ᵥ v) := by
    rw [← hAv i hi, ← hAv j hj, ← hAv k hk]
    have := Finset.sum_le_sum_of_subset_of_nonneg (s := {i, j, k}) (t := Finset.univ) (f := fun l => (design x w *ᵥ v) l * (design x w *ᵥ v) l)
      (Finset.subset_univ _) (fun l _ _ => mul_self_nonneg _)
    rw [Finset.sum_insert (by simp [nij, nik]), Finset.sum_insert (by simp [njk]), Finset.sum_singleton] at this
    simp only [dotProduct]
    linarith
  rw [hv]
  have m0 := mul_le_mul_of_nonneg_left c0 (sq_nonneg q2)
  have m1 := mul_le_mul_of_nonneg_left c1 (sq_nonneg q1)
  have m2 := mul_le_mul_of_nonneg_left c2 (sq_nonneg q0)
  have hb : q2 ^ 2 * colNorm x w 0 ^ 2 + q1 ^ 2 * colNorm x w 1 ^ 2 + q0 ^ 2 * colNorm x w 2 ^ 2 ≤ n * (q2 ^ 2 * X ^ 4 + q1 ^ 2 * X ^ 2 + q0 ^ 2) := by
    linarith
  have h4 : 0 ≤ δ ^ 4 := by positivity
  have h5 := mul_le_mul_of_nonneg_left hb h4
  have h6 := mul_le_mul_of_nonneg_left key (show (0:ℝ) ≤ n by positivity)
  have h7 := mul_le_mul_of_nonneg_left hsum (show (0:ℝ) ≤ 18 * n * X ^ 4 by positivity)
  linarith

lemma quadfit_01 (x a b c d : ℝ) : get_quadfit_weights x a b c d = 0 ∨ get_quadfit_weights x a b c d = 1 := by
  by_cases h : InWindows a b c d x
  · exact Or.inr (quadfit_one h)
  · exact Or.inl (quadfit_zero h)

lemma quadfit_ne {x a b c d : ℝ} : get_quadfit_weights x a b c d ≠ 0 ↔ InWindows a b c d x := by
  by_cases h : InWindows a b c d x
  · simp [quadfit_one h, h]
  · simp [quadfit_zero h, h]

/-- C116: **no cutoff, no effect.**  If three samples in the continuum windows are pairwise at least `δ` apart, all samples there are at most
`X` in size and `54 rcond² n X⁴ ≤ δ⁴` (`n` samples in all), then with JAX's `lstsq` (any singular value decomposition) both kernels return,
for every flux and line, what they return with exact least squares. -/
theorem C116_cutoff_inactive {rcond : ℝ} (hr : 0 ≤ rcond) (svd : ∀ A : Matrix (Fin (n + 1)) (Fin 3) ℝ, Svd A) {exact : Lstsq (n + 1)}
    (hl : IsLstsq exact) {wave : Fin (n + 1) → ℝ} {a b c d X δ : ℝ} (hδ : 0 < δ) (hX : ∀ i, InWindows a b c d (wave i) → |wave i| ≤ X)
    (h3 : ∃ i j k, InWindows a b c d (wave i) ∧ InWindows a b c d (wave j) ∧ InWindows a b c d (wave k) ∧
      δ ≤ |wave i - wave j| ∧ δ ≤ |wave j - wave k| ∧ δ ≤ |wave i - wave k|)
    (hcond : 54 * rcond ^ 2 * (n + 1 : ℕ) * X ^ 4 ≤ δ ^ 4) (flux : Fin (n + 1) → ℝ) (llo lmid lhi : ℝ) :
    continuum_line_decomp_kern (jax_lstsq rcond svd) wave flux llo lmid lhi a b c d
      = continuum_line_decomp_kern exact wave flux llo lmid lhi a b c d ∧
    ew_kernel (jax_lstsq rcond svd) wave flux llo lmid lhi a b c d = ew_kernel exact wave flux llo lmid lhi a b c d := by
  obtain ⟨i, j, k, hi, hj, hk, hij, hjk, hik⟩ := h3
  set w := fun i => get_quadfit_weights (wave i) a b c d with hw
  have hfit : weighted_quadratic_fit (jax_lstsq rcond svd) wave flux w = weighted_quadratic_fit exact wave flux w := by
    funext q
    rw [fit_eq, fit_eq]
    congr 1
    refine congrFun (?_ : jax_lstsq rcond svd (design wave w) _ = exact (design wave w) _) q
    refine minNorm_unique (svd_minNorm _ _ (svd_no_cutoff hr (fun v => ?_) _)) (hl _ _)
    have hx : ∃ l, w l ≠ 0 ∧ wave l ≠ 0 := by
      by_cases h : wave i = 0
      · refine ⟨j, quadfit_ne.2 hj, fun h' => ?_⟩
        rw [h, h', sub_self, abs_zero] at hij; linarith
      · exact ⟨i, quadfit_ne.2 hi, h⟩
    obtain ⟨l, hl1, hl2⟩ := hx
    rw [design_frobenius (colNorm_pos hl1 hl2)]
    have low := design_lower (x := wave) (w := w) hδ (fun i => quadfit_01 _ _ _ _ _) (fun i h => hX i (quadfit_ne.1 h)) (quadfit_ne.2 hi)
      (quadfit_ne.2 hj) (quadfit_ne.2 hk) hij hjk hik v
    have hvv := dot_self_nonneg v
    have hAA := dot_self_nonneg (design wave w *ᵥ v)
    have h4 : 0 < δ ^ 4 := by positivity
    have h5 := mul_le_mul_of_nonneg_left low (show 0 ≤ 3 * rcond ^ 2 by positivity)
    have h6 := mul_le_mul_of_nonneg_right hcond hAA
    refine le_of_mul_le_mul_left ?_ h4
    linarith
  refine ⟨?_, ?_⟩
  · unfold continuum_line_decomp_kern
    simp only [← hw, hfit]
  · unfold ew_kernel
    simp only [← hw, hfit]

/-- C116: **double precision**: for spectra of up to 100 000 samples, three of which lie in the continuum windows at mutual distances of at least
a thousandth of the largest wavelength there, JAX's cutoff never acts: every theorem of C62 and C63 holds of the kernels with JAX's `lstsq`. -/
theorem C116_float64 (svd : ∀ A : Matrix (Fin (n + 1)) (Fin 3) ℝ, Svd A) {exact : Lstsq (n + 1)} (hl : IsLstsq exact)
    (hn : n + 1 ≤ 100000) {wave : Fin (n + 1) → ℝ} {a b c d X : ℝ} (hX0 : 0 < X) (hX : ∀ i, InWindows a b c d (wave i) → |wave i| ≤ X)
    (h3 : ∃ i j k, InWindows a b c d (wave i) ∧ InWindows a b c d (wave j) ∧ InWindows a b c d (wave k) ∧
      X / 1000 ≤ |wave i - wave j| ∧ X / 1000 ≤ |wave j - wave k| ∧ X / 1000 ≤ |wave i - wave k|)
    (flux : Fin (n + 1) → ℝ) (llo lmid lhi : ℝ) :
    continuum_line_decomp_kern (jax_lstsq (default_rcond (2 ^ (-52:ℤ)) (n + 1) 3) svd) wave flux llo lmid lhi a b c d
      = continuum_line_decomp_kern exact wave flux llo lmid lhi a b c d ∧
    ew_kernel (jax_lstsq (default_rcond (2 ^ (-52:ℤ)) (n + 1) 3) svd) wave flux llo lmid lhi a b c d
      = ew_kernel exact wave flux llo lmid lhi a b c d := by
  have hr : 0 ≤ default_rcond (2 ^ (-52:ℤ)) (n + 1) 3 := by unfold default_rcond; positivity
  refine C116_cutoff_inactive hr svd hl (by positivity) hX h3 ?_ flux llo lmid lhi
  have h1 : ((max (n + 1) 3 : ℕ):ℝ) ≤ 100000 := by exact_mod_cast max_le hn (by norm_num)
  have h2 : ((n + 1 : ℕ):ℝ) ≤ 100000 := by exact_mod_cast hn
  have h3 : default_rcond (2 ^ (-52:ℤ)) (n + 1) 3 ≤ 2.3e-11 := by
    unfold default_rcond
    refine (mul_le_mul_of_nonneg_left h1 (by positivity)).trans (by norm_num)
  have h4 := pow_le_pow_left₀ hr h3 2
  have h5 := mul_le_mul h4 h2 (by positivity) (by norm_num)
  have h6 := mul_le_mul_of_nonneg_right h5 (show 0 ≤ X ^ 4 by positivity)
  rw [div_pow]
  have hX4 : 0 < X ^ 4 := by positivity
  norm_num at h6 ⊢
  linarith

/-- C116: **with a cutoff** the fit of an exactly quadratic continuum is off, over the continuum windows, by at most `√3 rcond` times the size of its
three terms there (sum of squares over the samples), in any precision. -/
theorem C116_cutoff_residual {rcond : ℝ} (hr : 0 ≤ rcond) (svd : ∀ A : Matrix (Fin (n + 1)) (Fin 3) ℝ, Svd A) {wave flux : Fin (n + 1) → ℝ}
    (llo lmid lhi : ℝ) {a b c d q0 q1 q2 : ℝ} (hne : ∃ i, InWindows a b c d (wave i) ∧ wave i ≠ 0)
    (hq : ∀ i, InWindows a b c d (wave i) → flux i = q0 + q1 * wave i + q2 * wave i ^ 2) :
    let fit := (continuum_line_decomp_kern (jax_lstsq rcond svd) wave flux llo lmid lhi a b c d).2.2.2
    ∑ i, (open Classical in if InWindows a b c d (wave i) then (fit 2 + fit 1 * wave i + fit 0 * wave i ^ 2 - flux i) ^ 2 else 0) ≤
      3 * rcond ^ 2 * ∑ i, (open Classical in if InWindows a b c d (wave i) then q0 ^ 2 + (q1 * wave i) ^ 2 + (q2 * wave i ^ 2) ^ 2 else 0) := by
  intro fit
  obtain ⟨l, hl, hl'⟩ := hne
  set w := fun i => get_quadfit_weights (wave i) a b c d with hw
  have hp := colNorm_pos (x := wave) (w := w) (quadfit_ne.2 hl) hl'
  set cv : Fin 3 → ℝ := fun k => (![q2, q1, q0] : Fin 3 → ℝ) k * colNorm wave w k with hcv
  have hw1 : ∀ i, InWindows a b c d (wave i) → w i = 1 := fun i h => quadfit_one h
  have hw0 : ∀ i, ¬ InWindows a b c d (wave i) → w i = 0 := fun i h => quadfit_zero h
  have hA : (fun i => flux i * w i) = design wave w *ᵥ cv := by
    funext i
    rw [design_mulVec]
    simp only [hcv, Matrix.cons_val_zero, Matrix.cons_val_one, Matrix.cons_val_two, Matrix.head_cons, Matrix.tail_cons]
    rw [mul_div_cancel_right₀ _ (hp 0).ne', mul_div_cancel_right₀ _ (hp 1).ne', mul_div_cancel_right₀ _ (hp 2).ne']
    by_cases h : InWindows a b c d (wave i)
    · rw [hq i h, hw1 i h]; ring
    · rw [hw0 i h]; ring
  have hfit : ∀ k, fit k = jax_lstsq rcond svd (design wave w) (design wave w *ᵥ cv) k / colNorm wave w k := fun k => by
    rw [← hA]; rfl
  have key := svd_residual hr (svd (design wave w)) cv
  rw [design_frobenius hp] at key
  have e1 : ∑ i, (open Classical in if InWindows a b c d (wave i) then (fit 2 + fit 1 * wave i + fit 0 * wave i ^ 2 - flux i) ^ 2 else 0) =
      (design wave w *ᵥ svd_solve rcond (svd (design wave w)) (design wave w *ᵥ cv) - design wave w *ᵥ cv) ⬝ᵥ
        (design wave w *ᵥ svd_solve rcond (svd (design wave w)) (design wave w *ᵥ cv) - design wave w *ᵥ cv) := by
    simp only [dotProduct]
    refine Finset.sum_congr rfl fun i _ => ?_
    rw [Pi.sub_apply, design_mulVec]
    have h0 := hfit 0
    have h1 := hfit 1
    have h2 := hfit 2
    unfold jax_lstsq at h0 h1 h2
    have h3 : (design wave w *ᵥ cv) i = flux i * w i := by rw [← hA]
    rw [← h0, ← h1, ← h2, h3]
    split_ifs with h
    · rw [hw1 i h]; ring
    · rw [hw0 i h]; ring
  have e2 : cv ⬝ᵥ cv = ∑ i, (open Classical in if InWindows a b c d (wave i) then q0 ^ 2 + (q1 * wave i) ^ 2 + (q2 * wave i ^ 2) ^ 2 else 0) := by
    have hs : cv ⬝ᵥ cv = q2 ^ 2 * colNorm wave w 0 ^ 2 + q1 ^ 2 * colNorm wave w 1 ^ 2 + q0 ^ 2 * colNorm wave w 2 ^ 2 := by
      simp only [dotProduct, Fin.sum_univ_three, hcv, Matrix.cons_val_zero, Matrix.cons_val_one, Matrix.cons_val_two, Matrix.head_cons, Matrix.tail_cons]
      ring
    rw [hs, colNorm_sq, colNorm_sq, colNorm_sq, Finset.mul_sum, Finset.mul_sum, Finset.mul_sum, ← Finset.sum_add_distrib, ← Finset.sum_add_distrib]
    refine Finset.sum_congr rfl fun i _ => ?_
    split_ifs with h
    · rw [hw1 i h]; simp [vander3]; ring
    · rw [hw0 i h]; ring
  rw [e1, ← e2]
  linarith

/-- C116: **an active cutoff.**  If all samples in the continuum windows are within a fraction `h` of `x0` and `h⁴ < 6 rcond² (1-h)⁴`, the
continuum `(λ - x0)²` is not recovered, although it is a quadratic (C62), whatever the number of samples in the windows. -/
theorem C116_cutoff_active {rcond : ℝ} (hr : 0 ≤ rcond) (svd : ∀ A : Matrix (Fin (n + 1)) (Fin 3) ℝ, Svd A) {wave flux : Fin (n + 1) → ℝ}
    (llo lmid lhi : ℝ) {a b c d x0 h : ℝ} (hx0 : 0 < x0) (hh : h < 1) (hne : ∃ i, InWindows a b c d (wave i))
    (hwin : ∀ i, InWindows a b c d (wave i) → |wave i - x0| ≤ h * x0) (hcut : h ^ 4 < 6 * rcond ^ 2 * (1 - h) ^ 4)
    (hq : ∀ i, InWindows a b c d (wave i) → flux i = (wave i - x0) ^ 2) :
    (continuum_line_decomp_kern (jax_lstsq rcond svd) wave flux llo lmid lhi a b c d).2.2.2 ≠ ![1, -2 * x0, x0 ^ 2] := by
  intro hfit
  obtain ⟨l, hl⟩ := hne
  have hlow : ∀ i, InWindows a b c d (wave i) → (1 - h) * x0 ≤ wave i := fun i hi => by
    have := (abs_le.1 (hwin i hi)).1; linarith
  have hq0 : 0 < (1 - h) * x0 := mul_pos (by linarith) hx0
  set w := fun i => get_quadfit_weights (wave i) a b c d with hw
  have hp := colNorm_pos (x := wave) (w := w) (quadfit_ne.2 hl) (hq0.trans_le (hlow l hl)).ne'
  set cv : Fin 3 → ℝ := fun k => (![1, -2 * x0, x0 ^ 2] : Fin 3 → ℝ) k * colNorm wave w k with hcv
  have hw1 : ∀ i, InWindows a b c d (wave i) → w i = 1 := fun i h => quadfit_one h
  have hw0 : ∀ i, ¬ InWindows a b c d (wave i) → w i = 0 := fun i h => quadfit_zero h
  have hA : design wave w *ᵥ cv = fun i => flux i * w i := by
    funext i
    rw [design_mulVec]
    simp only [hcv, Matrix.cons_val_zero, Matrix.cons_val_one, Matrix.cons_val_two, Matrix.head_cons, Matrix.tail_cons]
    rw [mul_div_cancel_right₀ _ (hp 0).ne', mul_div_cancel_right₀ _ (hp 1).ne', mul_div_cancel_right₀ _ (hp 2).ne']
    by_cases h : InWindows a b c d (wave i)
    · rw [hq i h, hw1 i h]; ring
    · rw [hw0 i h]; ring
  have hback : svd_solve rcond (svd (design wave w)) (design wave w *ᵥ cv) = cv := by
    funext k
    have : jax_lstsq rcond svd (design wave w) (fun i => flux i * w i) k / colNorm wave w k = (![1, -2 * x0, x0 ^ 2] : Fin 3 → ℝ) k := by
      rw [← hfit]; rfl
    rw [div_eq_iff (hp k).ne', ← hA] at this
    exact this
  obtain ⟨l', hl'⟩ : ∃ l', 1 ≤ (svd (design wave w)).s l' ^ 2 := by
    by_contra hc
    push Not at hc
    have hF := svd_frobenius (svd (design wave w))
    rw [design_frobenius hp] at hF
    have hcard : (Finset.univ : Finset (Fin (min (n + 1) 3))).card ≤ 3 := by simp
    by_cases hemp : (Finset.univ : Finset (Fin (min (n + 1) 3))).Nonempty
    · have h1 := Finset.sum_lt_sum_of_nonempty hemp fun k _ => hc k
      rw [hF] at h1
      simp only [Finset.sum_const, nsmul_eq_mul, mul_one] at h1
      have : ((Finset.univ : Finset (Fin (min (n + 1) 3))).card : ℝ) ≤ 3 := by exact_mod_cast hcard
      linarith
    · rw [Finset.not_nonempty_iff_eq_empty] at hemp
      rw [hemp] at hF; norm_num at hF
  have key := svd_kept hr (svd (design wave w)) hback l'
  have hcc : 0 ≤ cv ⬝ᵥ cv := dot_self_nonneg _
  have k1 : rcond ^ 2 * (cv ⬝ᵥ cv) ≤ (design wave w *ᵥ cv) ⬝ᵥ (design wave w *ᵥ cv) := by
    refine le_trans ?_ key
    have := mul_le_mul_of_nonneg_left hl' (sq_nonneg rcond)
    rw [mul_one] at this
    exact mul_le_mul_of_nonneg_right this hcc
  set N := ∑ i, w i with hN
  have hwn : ∀ i, 0 ≤ w i := fun i => by rcases quadfit_01 (wave i) a b c d with h | h <;> simp [hw, h]
  have hN0 : 0 < N := Finset.sum_pos' (fun i _ => hwn i) ⟨l, Finset.mem_univ _, by rw [hw1 l hl]; exact one_pos⟩
  have u1 : (design wave w *ᵥ cv) ⬝ᵥ (design wave w *ᵥ cv) ≤ (h * x0) ^ 4 * N := by
    rw [hA, hN, Finset.mul_sum]
    refine Finset.sum_le_sum fun i _ => ?_
    by_cases hi : InWindows a b c d (wave i)
    · show flux i * w i * (flux i * w i) ≤ _
      rw [hw1 i hi, hq i hi, mul_one, mul_one, ← pow_add]
      have := pow_le_pow_left₀ (abs_nonneg _) (hwin i hi) 4
      rwa [show (4:ℕ) = 2 + 2 by norm_num, pow_add, pow_add, sq_abs, ← pow_add, ← pow_add] at this
    · show flux i * w i * (flux i * w i) ≤ _
      rw [hw0 i hi]; simp
  have u2 : 6 * ((1 - h) * x0) ^ 4 * N ≤ cv ⬝ᵥ cv := by
    have hs : cv ⬝ᵥ cv = colNorm wave w 0 ^ 2 + 4 * x0 ^ 2 * colNorm wave w 1 ^ 2 + x0 ^ 4 * colNorm wave w 2 ^ 2 := by
      simp only [dotProduct, Fin.sum_univ_three, hcv, Matrix.cons_val_zero, Matrix.cons_val_one, Matrix.cons_val_two, Matrix.head_cons, Matrix.tail_cons]
      ring
    rw [hs, colNorm_sq, colNorm_sq, colNorm_sq, hN, Finset.mul_sum, Finset.mul_sum, Finset.mul_sum, ← Finset.sum_add_distrib, ← Finset.sum_add_distrib]
    refine Finset.sum_le_sum fun i _ => ?_
    by_cases hi : InWindows a b c d (wave i)
    · rw [hw1 i hi]
      have b1 := hlow i hi
      have b2 := pow_le_pow_left₀ hq0.le b1 2
      have b4 := pow_le_pow_left₀ hq0.le b1 4
      have h0 : 0 ≤ h := by
        have h1 := (abs_nonneg _).trans (hwin i hi)
        by_contra hc
        have := mul_neg_of_neg_of_pos (not_le.1 hc) hx0
        linarith
      have b3 : (1 - h) * x0 ≤ x0 := by nlinarith
      have b5 := pow_le_pow_left₀ hq0.le b3 2
      have b6 := pow_le_pow_left₀ hq0.le b3 4
      have b7 := mul_le_mul b5 b2 (by positivity) (by positivity)
      simp [vander3]
      nlinarith
    · rw [hw0 i hi]; simp
  have u3 := mul_le_mul_of_nonneg_left u2 (sq_nonneg rcond)
  have u4 := mul_lt_mul_of_pos_right hcut (show 0 < x0 ^ 4 * N by positivity)
  nlinarith

/-- C116: **single precision**: for float32 spectra of 1000 samples or more, continuum windows within 1% of a wavelength `x0` are too narrow: the
curvature is cut off, and the continuum `(λ - x0)²` is not recovered. -/
theorem C116_float32 (svd : ∀ A : Matrix (Fin (n + 1)) (Fin 3) ℝ, Svd A) (hn : 1000 ≤ n + 1) {wave flux : Fin (n + 1) → ℝ} (llo lmid lhi : ℝ)
    {a b c d x0 : ℝ} (hx0 : 0 < x0) (hne : ∃ i, InWindows a b c d (wave i))
    (hwin : ∀ i, InWindows a b c d (wave i) → |wave i - x0| ≤ 0.01 * x0)
    (hq : ∀ i, InWindows a b c d (wave i) → flux i = (wave i - x0) ^ 2) :
    (continuum_line_decomp_kern (jax_lstsq (default_rcond (2 ^ (-23:ℤ)) (n + 1) 3) svd) wave flux llo lmid lhi a b c d).2.2.2
      ≠ ![1, -2 * x0, x0 ^ 2] := by
  have h1 : (1000:ℝ) ≤ (max (n + 1) 3 : ℕ) := by exact_mod_cast hn.trans (le_max_left _ _)
  have h2 : 1.19e-4 ≤ default_rcond (2 ^ (-23:ℤ)) (n + 1) 3 := by
    unfold default_rcond
    refine le_trans (by norm_num) (mul_le_mul_of_nonneg_left h1 (by positivity))
  have h3 := pow_le_pow_left₀ (by norm_num) h2 2
  refine C116_cutoff_active (le_trans (by norm_num) h2) svd llo lmid lhi hx0 (h := 0.01) (by norm_num) hne hwin ?_ hq
  norm_num at h3 ⊢
  linarith

/-- JAX's solver exists: every matrix has a singular value decomposition -/
example : Nonempty (∀ A : Matrix (Fin (n + 1)) (Fin 3) ℝ, Svd A) := ⟨fun A => (exists_svd A).some⟩

/-- the windows around Hα of a spectrum of 1000 samples between 6500 and 6630 Å -/
noncomputable def haWave (i : Fin 1000) : ℝ := 6500 + 0.13 * (i : ℕ)

lemma haWave_three : ∃ i j k, InWindows 6500 6540 6590 6630 (haWave i) ∧ InWindows 6500 6540 6590 6630 (haWave j) ∧
    InWindows 6500 6540 6590 6630 (haWave k) ∧ 6630 / 1000 ≤ |haWave i - haWave j| ∧ 6630 / 1000 ≤ |haWave j - haWave k| ∧
    6630 / 1000 ≤ |haWave i - haWave k| := by
  refine ⟨0, 300, 900, ?_⟩
  have e1 : haWave 0 = 6500 := by norm_num [haWave]
  have e2 : haWave 300 = 6539 := by norm_num [haWave, show ((300 : Fin 1000) : ℕ) = 300 from rfl]
  have e3 : haWave 900 = 6617 := by norm_num [haWave, show ((900 : Fin 1000) : ℕ) = 900 from rfl]
  rw [e1, e2, e3]
  unfold InWindows
  refine ⟨by norm_num, by norm_num, by norm_num, ?_, ?_, ?_⟩ <;> rw [abs_of_nonpos (by norm_num)] <;> norm_num

/-- in double precision a line on a quadratic continuum is measured exactly, with JAX's cutoff: C62 carries over -/
example (svd : ∀ A : Matrix (Fin 1000) (Fin 3) ℝ, Svd A) (q0 q1 q2 : ℝ) :
    ew_kernel (n := 999) (jax_lstsq (default_rcond (2 ^ (-52:ℤ)) 1000 3) svd) haWave (fun i => q0 + q1 * haWave i + q2 * haWave i ^ 2)
      6550 6563 6580 6500 6540 6590 6630 = (0, 0) := by
  obtain ⟨f, hf⟩ := exists_lstsq (n := 1000) (m := 3)
  have hX : ∀ i, InWindows 6500 6540 6590 6630 (haWave i) → |haWave i| ≤ 6630 := fun i h => by
    unfold InWindows at h
    rw [abs_le]; constructor <;> rcases h with ⟨h1, h2⟩ | ⟨h1, h2⟩ <;> linarith
  rw [(C116_float64 (n := 999) svd hf (by norm_num) (by norm_num) hX haWave_three _ _ _ _).2]
  refine C62_no_line hf _ _ _ (fun i _ => rfl) ?_
  obtain ⟨i, j, k, h1, h2, h3, h4, h5, h6⟩ := haWave_three
  refine ⟨i, j, k, h1, h2, h3, ?_, ?_, ?_⟩ <;> intro h
  · rw [h, sub_self, abs_zero] at h4; norm_num at h4
  · rw [h, sub_self, abs_zero] at h5; norm_num at h5
  · rw [h, sub_self, abs_zero] at h6; norm_num at h6

/-- in single precision the same windows are too narrow -/
example (svd : ∀ A : Matrix (Fin 1000) (Fin 3) ℝ, Svd A) :
    (continuum_line_decomp_kern (n := 999) (jax_lstsq (default_rcond (2 ^ (-23:ℤ)) 1000 3) svd) haWave (fun i => (haWave i - 6565) ^ 2)
      6550 6563 6580 6500 6540 6590 6630).2.2.2 ≠ ![1, -2 * 6565, 6565 ^ 2] := by
  refine C116_float32 (n := 999) svd (by norm_num) _ _ _ (by norm_num) ?_ (fun i h => ?_) fun i _ => rfl
  · obtain ⟨i, -, -, h, -⟩ := haWave_three
    exact ⟨i, h⟩
  · unfold InWindows at h
    rw [abs_le]; norm_num; constructor <;> rcases h with ⟨h1, h2⟩ | ⟨h1, h2⟩ <;> linarith

/-- C116 applied with a cutoff of 1e-9 -/
example (svd : ∀ A : Matrix (Fin 1000) (Fin 3) ℝ, Svd A) {exact : Lstsq 1000} (hl : IsLstsq exact) (flux : Fin 1000 → ℝ) :=
  C116_cutoff_inactive (n := 999) (rcond := 1e-9) (by norm_num) svd hl (wave := haWave) (X := 6630) (δ := 6630 / 1000) (by norm_num)
    (fun i h => by
      unfold InWindows at h
      rw [abs_le]; constructor <;> rcases h with ⟨h1, h2⟩ | ⟨h1, h2⟩ <;> linarith) haWave_three (by norm_num) flux 6550 6563 6580
/-- C116 applied with a cutoff of 1e-4: a quadratic continuum -/
example (svd : ∀ A : Matrix (Fin 1000) (Fin 3) ℝ, Svd A) :=
  C116_cutoff_residual (n := 999) (rcond := 1e-4) (by norm_num) svd (wave := haWave) (flux := fun i => 7 - haWave i + 2 * haWave i ^ 2)
    6550 6563 6580 (a := 6500) (b := 6540) (c := 6590) (d := 6630) (q0 := 7) (q1 := -1) (q2 := 2)
    ⟨0, by unfold InWindows haWave; norm_num, by unfold haWave; norm_num⟩ (fun i _ => by ring)
/-- C116 applied with a cutoff of 1e-4: a parabola with its minimum in the line is not recovered -/
example (svd : ∀ A : Matrix (Fin 1000) (Fin 3) ℝ, Svd A) :=
  C116_cutoff_active (n := 999) (rcond := 1e-4) (by norm_num) svd (wave := haWave) (flux := fun i => (haWave i - 6565) ^ 2)
    6550 6563 6580 (a := 6500) (b := 6540) (c := 6590) (d := 6630) (x0 := 6565) (h := 0.01) (by norm_num) (by norm_num)
    ⟨0, by unfold InWindows haWave; norm_num⟩
    (fun i h => by
      unfold InWindows at h
      rw [abs_le]; norm_num; constructor <;> rcases h with ⟨h1, h2⟩ | ⟨h1, h2⟩ <;> linarith) (by norm_num) (fun i _ => rfl)

end Dsps.Props
