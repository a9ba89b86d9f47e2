import Verif.Lemmas.Lstsq
import Verif.Model.JaxLstsq
import Mathlib.Analysis.InnerProductSpace.SingularValues

/-! Singular value decompositions: existence; JAX's `lstsq` is the minimum-norm least-squares solution unless a singular value is cut off. -/
namespace Dsps.Lemmas
open Matrix Spec EquivalentWidth

variable {n m : ℕ} {A : Matrix (Fin n) (Fin m) ℝ}

theorem svd_mulVec (D : Svd A) (x : Fin m → ℝ) (i : Fin n) : (A *ᵥ x) i = ∑ k, D.s k * (D.v k ⬝ᵥ x) * D.u k i := by
  simp only [mulVec, dotProduct, D.eq, Finset.sum_mul, Finset.mul_sum]
  rw [Finset.sum_comm]
  exact Finset.sum_congr rfl fun k _ => Finset.sum_congr rfl fun j _ => by ring

theorem svd_mulVec' (D : Svd A) (x : Fin m → ℝ) : A *ᵥ x = ∑ k, (D.s k * (D.v k ⬝ᵥ x)) • D.u k := by
  funext i
  rw [svd_mulVec, Finset.sum_apply]
  rfl

theorem sum_dot {ι : Type*} (t : Finset ι) (f : ι → Fin n → ℝ) (x : Fin n → ℝ) : (∑ k ∈ t, f k) ⬝ᵥ x = ∑ k ∈ t, f k ⬝ᵥ x := by
  classical
  induction t using Finset.induction_on with
  | empty => simp
  | insert a t ha ih => rw [Finset.sum_insert ha, Finset.sum_insert ha, add_dotProduct, ih]

theorem svd_dot_u (D : Svd A) (c : Fin (min n m) → ℝ) (k : Fin (min n m)) : (∑ l, c l • D.u l) ⬝ᵥ D.u k = c k := by
  rw [sum_dot]
  simp [smul_dotProduct, D.u_orth]

theorem svd_dot_v (D : Svd A) (c : Fin (min n m) → ℝ) (k : Fin (min n m)) : (∑ l, c l • D.v l) ⬝ᵥ D.v k = c k := by
  rw [sum_dot]
  simp [smul_dotProduct, D.v_orth]

theorem svd_u_norm (D : Svd A) (c : Fin (min n m) → ℝ) : (∑ l, c l • D.u l) ⬝ᵥ (∑ l, c l • D.u l) = ∑ k, c k ^ 2 := by
  conv_lhs => rw [sum_dot]
  refine Finset.sum_congr rfl fun k _ => ?_
  rw [smul_dotProduct, dotProduct_comm, svd_dot_u, smul_eq_mul, pow_two]

theorem svd_v_norm (D : Svd A) (c : Fin (min n m) → ℝ) : (∑ l, c l • D.v l) ⬝ᵥ (∑ l, c l • D.v l) = ∑ k, c k ^ 2 := by
  conv_lhs => rw [sum_dot]
  refine Finset.sum_congr rfl fun k _ => ?_
  rw [smul_dotProduct, dotProduct_comm, svd_dot_v, smul_eq_mul, pow_two]

theorem svd_norm (D : Svd A) (x : Fin m → ℝ) : (A *ᵥ x) ⬝ᵥ (A *ᵥ x) = ∑ k, (D.s k * (D.v k ⬝ᵥ x)) ^ 2 := by
  rw [svd_mulVec', svd_u_norm]

/-- Bessel -/
theorem svd_bessel (D : Svd A) (x : Fin m → ℝ) : ∑ k, (D.v k ⬝ᵥ x) ^ 2 ≤ x ⬝ᵥ x := by
  set y := ∑ k, (D.v k ⬝ᵥ x) • D.v k with hy
  have h := dot_self_nonneg (x - y)
  have e1 : y ⬝ᵥ y = ∑ k, (D.v k ⬝ᵥ x) ^ 2 := svd_v_norm D _
  have e2 : y ⬝ᵥ x = ∑ k, (D.v k ⬝ᵥ x) ^ 2 := by
    rw [hy, sum_dot]
    exact Finset.sum_congr rfl fun k _ => by rw [smul_dotProduct, smul_eq_mul, pow_two]
  rw [sub_dotProduct, dotProduct_sub, dotProduct_sub, dotProduct_comm x y, e1, e2] at h
  linarith

open Classical in
theorem svd_solve_eq (rcond : ℝ) (D : Svd A) (b : Fin n → ℝ) :
    svd_solve rcond D b = ∑ k, ((if keeps rcond D k then 1 / D.s k else 0) * (D.u k ⬝ᵥ b)) • D.v k := by
  funext j
  simp only [svd_solve, Finset.sum_apply, Pi.smul_apply, smul_eq_mul]
  exact Finset.sum_congr rfl fun k _ => mul_comm _ _

open Classical in
theorem svd_solve_v (rcond : ℝ) (D : Svd A) (b : Fin n → ℝ) (k : Fin (min n m)) :
    D.v k ⬝ᵥ svd_solve rcond D b = (if keeps rcond D k then 1 / D.s k else 0) * (D.u k ⬝ᵥ b) := by
  rw [svd_solve_eq, dotProduct_comm, svd_dot_v]

/-- without a cutoff of a non-zero singular value, JAX's solver returns the minimum-norm least-squares solution -/
theorem svd_minNorm {rcond : ℝ} (D : Svd A) (b : Fin n → ℝ) (h : ∀ k, 0 < D.s k → keeps rcond D k) :
    MinNormLeastSquares A b (svd_solve rcond D b) := by
  classical
  rw [minNorm_iff]
  have hA : ∀ k, D.s k * ((if keeps rcond D k then 1 / D.s k else 0) * (D.u k ⬝ᵥ b)) = if 0 < D.s k then D.u k ⬝ᵥ b else 0 := fun k => by
    rcases (D.nonneg k).eq_or_lt with h0 | h0
    · simp [← h0]
    · rw [if_pos (h k h0), if_pos h0]; field_simp
  constructor
  · intro y
    rw [sub_dotProduct, svd_mulVec' D y, dotProduct_comm, dotProduct_comm b, sum_dot, sum_dot, ← Finset.sum_sub_distrib]
    refine Finset.sum_eq_zero fun k _ => ?_
    rw [smul_dotProduct, smul_dotProduct, svd_mulVec' D, dotProduct_comm (D.u k) (∑ _, _), svd_dot_u, svd_solve_v, hA, smul_eq_mul, smul_eq_mul]
    split_ifs with h0
    · ring
    · have : D.s k = 0 := le_antisymm (not_lt.1 h0) (D.nonneg k)
      rw [this]; ring
  · intro y hy
    have h1 : ∀ k, D.s k * (D.v k ⬝ᵥ y) = 0 := fun k => by
      rw [← svd_dot_u D (fun k => D.s k * (D.v k ⬝ᵥ y)) k, ← svd_mulVec', hy, zero_dotProduct]
    rw [svd_solve_eq, sum_dot]
    refine Finset.sum_eq_zero fun k _ => ?_
    rw [smul_dotProduct, smul_eq_mul]
    split_ifs with hk
    · have := (mul_eq_zero.1 (h1 k)).resolve_left hk.1.ne'
      rw [this, mul_zero]
    · rw [zero_mul, zero_mul]

theorem svd_image (D : Svd A) (k : Fin (min n m)) : (A *ᵥ D.v k) ⬝ᵥ (A *ᵥ D.v k) = D.s k ^ 2 := by
  rw [svd_norm D]
  simp [D.v_orth, mul_pow]

/-- the squares of the singular values add up to the squares of the entries -/
theorem svd_frobenius (D : Svd A) : ∑ k, D.s k ^ 2 = ∑ i, ∑ j, A i j ^ 2 := by
  have h1 : ∀ j, ∑ i, A i j ^ 2 = ∑ k, (D.s k * D.v k j) ^ 2 := fun j => by
    have e : (fun i => A i j) = ∑ k, (D.s k * D.v k j) • D.u k := by
      funext i; rw [D.eq, Finset.sum_apply]
      exact Finset.sum_congr rfl fun k _ => by simp only [Pi.smul_apply, smul_eq_mul]; ring
    have : ∑ i, A i j ^ 2 = (fun i => A i j) ⬝ᵥ (fun i => A i j) := by
      simp only [dotProduct, pow_two]
    rw [this, e, svd_u_norm]
  rw [Finset.sum_comm]
  simp only [h1]
  rw [Finset.sum_comm]
  refine Finset.sum_congr rfl fun k _ => ?_
  simp only [mul_pow, ← Finset.mul_sum]
  have h2 : ∑ j, D.v k j ^ 2 = 1 := by
    have := D.v_orth k k
    simp only [if_true, dotProduct] at this
    rw [← this]; exact Finset.sum_congr rfl fun j _ => pow_two _
  rw [h2, mul_one]

/-- sufficient for no cutoff: no direction is shrunk below `rcond` times the size of the matrix -/
theorem svd_no_cutoff {rcond : ℝ} (hr : 0 ≤ rcond) (h : ∀ x, rcond ^ 2 * (∑ i, ∑ j, A i j ^ 2) * (x ⬝ᵥ x) ≤ (A *ᵥ x) ⬝ᵥ (A *ᵥ x)) (D : Svd A)
    (k : Fin (min n m)) (hk : 0 < D.s k) : keeps rcond D k := by
  refine ⟨hk, fun l => ?_⟩
  have h1 := h (D.v k)
  rw [svd_image, D.v_orth, if_pos rfl, mul_one, ← svd_frobenius D] at h1
  have h2 : D.s l ^ 2 ≤ ∑ k, D.s k ^ 2 := Finset.single_le_sum (f := fun k => D.s k ^ 2) (fun k _ => sq_nonneg _) (Finset.mem_univ l)
  have h3 := mul_le_mul_of_nonneg_left h2 (sq_nonneg rcond)
  rw [← mul_pow] at h3
  exact le_of_sq_le_sq (h3.trans h1) hk.le

/-- applied to `A c`, the solver keeps the components of `c` whose singular values are kept -/
theorem svd_solve_image (rcond : ℝ) (D : Svd A) (c : Fin m → ℝ) (k : Fin (min n m)) : open Classical in
    D.v k ⬝ᵥ svd_solve rcond D (A *ᵥ c) = if keeps rcond D k then D.v k ⬝ᵥ c else 0 := by
  classical
  rw [svd_solve_v, svd_mulVec', dotProduct_comm (D.u k), svd_dot_u]
  split_ifs with h
  · field_simp [h.1.ne']
  · rw [zero_mul]

/-- the residual caused by the cutoff -/
theorem svd_residual {rcond : ℝ} (hr : 0 ≤ rcond) (D : Svd A) (c : Fin m → ℝ) :
    (A *ᵥ svd_solve rcond D (A *ᵥ c) - A *ᵥ c) ⬝ᵥ (A *ᵥ svd_solve rcond D (A *ᵥ c) - A *ᵥ c) ≤
      rcond ^ 2 * (∑ i, ∑ j, A i j ^ 2) * (c ⬝ᵥ c) := by
  classical
  rw [← mulVec_sub, svd_norm D]
  have hF : 0 ≤ ∑ i, ∑ j, A i j ^ 2 := Finset.sum_nonneg fun i _ => Finset.sum_nonneg fun j _ => sq_nonneg _
  have key : ∀ k, (D.s k * (D.v k ⬝ᵥ (svd_solve rcond D (A *ᵥ c) - c))) ^ 2 ≤ rcond ^ 2 * (∑ i, ∑ j, A i j ^ 2) * (D.v k ⬝ᵥ c) ^ 2 := fun k => by
    rw [dotProduct_sub, svd_solve_image]
    split_ifs with h
    · rw [sub_self, mul_zero, zero_pow two_ne_zero]; positivity
    · rw [zero_sub, mul_neg, neg_sq, mul_pow]
      refine mul_le_mul_of_nonneg_right ?_ (sq_nonneg _)
      rcases (D.nonneg k).eq_or_lt with h0 | h0
      · rw [← h0, zero_pow two_ne_zero]; positivity
      · unfold keeps at h
        push Not at h
        obtain ⟨l, hl⟩ := h h0
        have h2 : D.s l ^ 2 ≤ ∑ i, ∑ j, A i j ^ 2 := by
          rw [← svd_frobenius D]
          exact Finset.single_le_sum (f := fun k => D.s k ^ 2) (fun k _ => sq_nonneg _) (Finset.mem_univ l)
        calc D.s k ^ 2 ≤ (rcond * D.s l) ^ 2 := pow_le_pow_left₀ h0.le hl.le 2
          _ = rcond ^ 2 * D.s l ^ 2 := mul_pow _ _ _
          _ ≤ _ := mul_le_mul_of_nonneg_left h2 (sq_nonneg _)
  refine (Finset.sum_le_sum fun k _ => key k).trans ?_
  rw [← Finset.mul_sum]
  exact mul_le_mul_of_nonneg_left (svd_bessel D c) (by positivity)

/-- if `c` comes back from `A c` then `A` does not shrink it below `rcond` times the largest singular value -/
theorem svd_kept {rcond : ℝ} (hr : 0 ≤ rcond) (D : Svd A) {c : Fin m → ℝ} (h : svd_solve rcond D (A *ᵥ c) = c) (l : Fin (min n m)) :
    rcond ^ 2 * D.s l ^ 2 * (c ⬝ᵥ c) ≤ (A *ᵥ c) ⬝ᵥ (A *ᵥ c) := by
  classical
  have e : c ⬝ᵥ c = ∑ k, (D.v k ⬝ᵥ c) ^ 2 := by
    have h1 := svd_solve_eq rcond D (A *ᵥ c)
    rw [h] at h1
    have h2 : c = ∑ k, (D.v k ⬝ᵥ c) • D.v k := by
      conv_lhs => rw [h1]
      refine Finset.sum_congr rfl fun k _ => ?_
      congr 1
      rw [← svd_solve_v, h]
    have h3 := svd_v_norm D fun k => D.v k ⬝ᵥ c
    rw [← h2] at h3
    exact h3
  rw [e, svd_norm, Finset.mul_sum]
  refine Finset.sum_le_sum fun k _ => ?_
  have h1 := svd_solve_image rcond D c k
  rw [h] at h1
  rw [mul_pow]
  split_ifs at h1 with hk
  · refine mul_le_mul_of_nonneg_right ?_ (sq_nonneg _)
    rw [← mul_pow]
    exact pow_le_pow_left₀ (mul_nonneg hr (D.nonneg l)) (hk.2 l) 2
  · rw [h1]; simp

/-- every matrix has a singular value decomposition -/
theorem exists_svd (A : Matrix (Fin n) (Fin m) ℝ) : Nonempty (Svd A) := by
  let L := A.toEuclideanLin
  have hm : Module.finrank ℝ (EuclideanSpace ℝ (Fin m)) = m := by simp
  let E := L.isSymmetric_adjoint_comp_self.eigenvectorBasis hm
  have hE : ∀ k, (LinearMap.adjoint L ∘ₗ L) (E k) = (L.singularValues k ^ 2) • E k := fun k => by
    rw [L.sq_singularValues_fin hm]
    exact L.isSymmetric_adjoint_comp_self.apply_eigenvectorBasis hm k
  have hin : ∀ k l, inner ℝ (L (E k)) (L (E l)) = if k = l then L.singularValues k ^ 2 else 0 := fun k l => by
    rw [← LinearMap.adjoint_inner_right]
    have := hE l
    rw [LinearMap.comp_apply] at this
    rw [this, inner_smul_right, orthonormal_iff_ite.1 E.orthonormal]
    split_ifs with h
    · rw [h, mul_one]
    · rw [mul_zero]
  have hzero : ∀ k : Fin m, L.singularValues k = 0 → L (E k) = 0 := fun k hk => by
    have := hin k k
    rw [if_pos rfl, hk] at this
    exact inner_self_eq_zero (𝕜 := ℝ).1 (by rw [this]; simp)
  have hrank : ∀ k : ℕ, n ≤ k → L.singularValues k = 0 := fun k hk => by
    rw [L.singularValues_eq_zero_iff_le_finrank_range]
    refine le_trans (Submodule.finrank_le _) ?_
    simpa using hk
  let w : Fin n → EuclideanSpace ℝ (Fin n) := fun k => if h : (k : ℕ) < m then (L.singularValues k)⁻¹ • L (E ⟨k, h⟩) else 0
  let S : Set (Fin n) := {k | (k : ℕ) < m ∧ L.singularValues k ≠ 0}
  have hw : Orthonormal ℝ (S.domRestrict w) := by
    rw [orthonormal_iff_ite]
    rintro ⟨k, hk⟩ ⟨l, hl⟩
    simp only [Set.domRestrict_apply, w, dif_pos hk.1, dif_pos hl.1]
    rw [inner_smul_left, inner_smul_right, hin]
    by_cases h : k = l
    · subst h
      have := hk.2
      simp only [if_true, RCLike.conj_to_real]
      field_simp
    · rw [if_neg (by intro h'; apply h; simpa [Fin.ext_iff] using h'), if_neg (by simpa using h)]; simp
  obtain ⟨U, hU⟩ := hw.exists_orthonormalBasis_extension_of_card_eq (by simp)
  have dot : ∀ {q : ℕ} (x y : EuclideanSpace ℝ (Fin q)), WithLp.ofLp x ⬝ᵥ WithLp.ofLp y = inner ℝ x y := fun x y => by
    rw [EuclideanSpace.inner_eq_star_dotProduct, dotProduct_comm]; simp
  have hn' : ∀ k : Fin (min n m), (k : ℕ) < n := fun k => lt_of_lt_of_le k.2 (min_le_left _ _)
  have hm' : ∀ k : Fin (min n m), (k : ℕ) < m := fun k => lt_of_lt_of_le k.2 (min_le_right _ _)
  have hLE : ∀ k : Fin (min n m), L (E ⟨k, hm' k⟩) = L.singularValues k • U ⟨k, hn' k⟩ := fun k => by
    by_cases h : L.singularValues (k : ℕ) = 0
    · rw [hzero ⟨k, hm' k⟩ h, h, zero_smul]
    · rw [hU ⟨k, hn' k⟩ ⟨hm' k, h⟩]
      simp only [w, dif_pos (hm' k)]
      rw [smul_smul, mul_inv_cancel₀ h, one_smul]
  refine ⟨⟨fun k => WithLp.ofLp (U ⟨k, hn' k⟩), fun k => L.singularValues k, fun k => WithLp.ofLp (E ⟨k, hm' k⟩), fun k l => ?_,
    fun k l => ?_, fun k => L.singularValues_nonneg k, fun k l h => L.singularValues_antitone h, fun i j => ?_⟩⟩
  · rw [dot, orthonormal_iff_ite.1 U.orthonormal]
    simp [Fin.ext_iff]
  · rw [dot, orthonormal_iff_ite.1 E.orthonormal]
    simp [Fin.ext_iff]
  · have e1 : A i j = WithLp.ofLp (L (EuclideanSpace.single j 1)) i := by
      show A i j = (A *ᵥ WithLp.ofLp (EuclideanSpace.single j (1:ℝ))) i
      simp
    have e2 : (EuclideanSpace.single j (1:ℝ)) = ∑ k, (WithLp.ofLp (E k) j) • E k := by
      conv_lhs => rw [← E.sum_repr' (EuclideanSpace.single j (1:ℝ))]
      refine Finset.sum_congr rfl fun k _ => ?_
      congr 1
      rw [EuclideanSpace.inner_single_right]; simp
    rw [e1, e2, map_sum]
    simp only [map_smul]
    have e3 : ∑ k : Fin m, (WithLp.ofLp (E k) j) • L (E k) = ∑ k : Fin (min n m), (WithLp.ofLp (E ⟨k, hm' k⟩) j) • L (E ⟨k, hm' k⟩) := by
      let ι : Fin (min n m) ↪ Fin m := ⟨fun k => ⟨k, hm' k⟩, fun a b h => by simpa [Fin.ext_iff] using h⟩
      rw [show (∑ k : Fin (min n m), (WithLp.ofLp (E ⟨k, hm' k⟩) j) • L (E ⟨k, hm' k⟩)) = ∑ k ∈ Finset.univ.map ι, (WithLp.ofLp (E k) j) • L (E k) by
        rw [Finset.sum_map]; rfl]
      symm
      refine Finset.sum_subset (Finset.subset_univ _) fun k _ hk => ?_
      have : n ≤ (k : ℕ) := by
        by_contra hc
        exact hk (Finset.mem_map.2 ⟨⟨k, lt_min (not_le.1 hc) k.2⟩, Finset.mem_univ _, rfl⟩)
      rw [hzero k (hrank k this), smul_zero]
    rw [e3]
    simp only [hLE, WithLp.ofLp_sum, Finset.sum_apply, WithLp.ofLp_smul, Pi.smul_apply, smul_eq_mul]
    exact Finset.sum_congr rfl fun k _ => by ring

end Dsps.Lemmas
