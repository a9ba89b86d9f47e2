import Verif.SpecLstsq
import Mathlib.Analysis.InnerProductSpace.Projection.Basic
import Mathlib.Analysis.InnerProductSpace.PiL2
import Mathlib.Tactic.Linarith
import Mathlib.Tactic.Positivity

/-! Minimum-norm least squares: normal equations, uniqueness, linearity, existence. -/
namespace Dsps.Lemmas
open Matrix Spec

variable {n m : ℕ}

theorem dot_self_nonneg (v : Fin n → ℝ) : 0 ≤ v ⬝ᵥ v := Finset.sum_nonneg fun i _ => mul_self_nonneg _

theorem dot_self_zero {v : Fin n → ℝ} (h : v ⬝ᵥ v = 0) : v = 0 := by
  funext i
  have := (Finset.sum_eq_zero_iff_of_nonneg (fun i _ => mul_self_nonneg (v i))).1 h i (Finset.mem_univ i)
  exact mul_self_eq_zero.1 this

theorem lin_zero {p q : ℝ} (h : ∀ t : ℝ, 0 ≤ 2 * t * p + t ^ 2 * q) (hq : 0 ≤ q) : p = 0 := by
  have h1 := h (-p / (q + 1))
  have hq1 : 0 < q + 1 := by linarith
  have e : 2 * (-p / (q + 1)) * p + (-p / (q + 1)) ^ 2 * q = -(p ^ 2 * (q + 2)) / (q + 1) ^ 2 := by
    field_simp; ring
  rw [e] at h1
  have h2 : 0 < (q + 1) ^ 2 := by positivity
  have h3 : 0 ≤ -(p ^ 2 * (q + 2)) := by
    by_contra hc
    have := div_neg_of_neg_of_pos (not_le.1 hc) h2
    linarith
  nlinarith [sq_nonneg p]

theorem sq_expand (u v : Fin n → ℝ) (t : ℝ) :
    (u + t • v) ⬝ᵥ (u + t • v) = u ⬝ᵥ u + (2 * t * (u ⬝ᵥ v) + t ^ 2 * (v ⬝ᵥ v)) := by
  simp only [add_dotProduct, dotProduct_add, smul_dotProduct, dotProduct_smul, smul_eq_mul, dotProduct_comm v u]
  ring

/-- normal equations -/
theorem leastSquares_iff (A : Matrix (Fin n) (Fin m) ℝ) (b : Fin n → ℝ) (x : Fin m → ℝ) :
    LeastSquares A b x ↔ ∀ v, (A *ᵥ x - b) ⬝ᵥ (A *ᵥ v) = 0 := by
  constructor
  · intro h v
    apply lin_zero (q := (A *ᵥ v) ⬝ᵥ (A *ᵥ v)) _ (dot_self_nonneg _)
    intro t
    have := h (x + t • v)
    rw [mulVec_add, mulVec_smul, add_sub_right_comm, sq_expand] at this
    linarith
  · intro h y
    have e : A *ᵥ y - b = (A *ᵥ x - b) + (1 : ℝ) • (A *ᵥ (y - x)) := by
      rw [mulVec_sub, one_smul]; abel
    rw [e, sq_expand, h]
    have := dot_self_nonneg (A *ᵥ (y - x))
    linarith

theorem minNorm_iff (A : Matrix (Fin n) (Fin m) ℝ) (b : Fin n → ℝ) (x : Fin m → ℝ) :
    MinNormLeastSquares A b x ↔
      (∀ v, (A *ᵥ x - b) ⬝ᵥ (A *ᵥ v) = 0) ∧ ∀ v, A *ᵥ v = 0 → x ⬝ᵥ v = 0 := by
  constructor
  · rintro ⟨h1, h2⟩
    rw [leastSquares_iff] at h1
    refine ⟨h1, fun v hv => ?_⟩
    apply lin_zero (q := v ⬝ᵥ v) _ (dot_self_nonneg _)
    intro t
    have := h2 (x + t • v) ((leastSquares_iff A b _).2 fun u => by
      rw [mulVec_add, mulVec_smul, hv, smul_zero, add_zero]; exact h1 u)
    rw [sq_expand] at this
    linarith
  · rintro ⟨h1, h2⟩
    refine ⟨(leastSquares_iff A b x).2 h1, fun y hy => ?_⟩
    rw [leastSquares_iff] at hy
    have hker : A *ᵥ (y - x) = 0 := by
      apply dot_self_zero
      have h3 := h1 (y - x)
      have h4 := hy (y - x)
      have e : A *ᵥ (y - x) = (A *ᵥ y - b) - (A *ᵥ x - b) := by rw [mulVec_sub]; abel
      calc (A *ᵥ (y - x)) ⬝ᵥ (A *ᵥ (y - x))
          = ((A *ᵥ y - b) - (A *ᵥ x - b)) ⬝ᵥ (A *ᵥ (y - x)) := by rw [← e]
        _ = 0 := by rw [sub_dotProduct, h3, h4, sub_zero]
    have e : y = x + (1 : ℝ) • (y - x) := by rw [one_smul]; abel
    rw [e, sq_expand, h2 _ hker]
    have := dot_self_nonneg (y - x)
    linarith

theorem minNorm_unique {A : Matrix (Fin n) (Fin m) ℝ} {b : Fin n → ℝ} {x y : Fin m → ℝ}
    (hx : MinNormLeastSquares A b x) (hy : MinNormLeastSquares A b y) : x = y := by
  rw [minNorm_iff] at hx hy
  have hker : A *ᵥ (y - x) = 0 := by
    apply dot_self_zero
    have h3 := hx.1 (y - x)
    have h4 := hy.1 (y - x)
    have e : A *ᵥ (y - x) = (A *ᵥ y - b) - (A *ᵥ x - b) := by rw [mulVec_sub]; abel
    calc (A *ᵥ (y - x)) ⬝ᵥ (A *ᵥ (y - x))
        = ((A *ᵥ y - b) - (A *ᵥ x - b)) ⬝ᵥ (A *ᵥ (y - x)) := by rw [← e]
      _ = 0 := by rw [sub_dotProduct, h3, h4, sub_zero]
  have : y - x = 0 := by
    apply dot_self_zero
    rw [sub_dotProduct, hx.2 _ hker, hy.2 _ hker, sub_zero]
  rw [sub_eq_zero] at this
  exact this.symm

/-- the solver is linear in the right-hand side -/
theorem lstsq_linear {f : Matrix (Fin n) (Fin m) ℝ → (Fin n → ℝ) → (Fin m → ℝ)} (hf : IsLstsq f)
    (A : Matrix (Fin n) (Fin m) ℝ) (b c : Fin n → ℝ) (s t : ℝ) :
    f A (s • b + t • c) = s • f A b + t • f A c := by
  apply minNorm_unique (hf A _)
  have hb := (minNorm_iff A b _).1 (hf A b)
  have hc := (minNorm_iff A c _).1 (hf A c)
  rw [minNorm_iff]
  constructor
  · intro v
    have e : A *ᵥ (s • f A b + t • f A c) - (s • b + t • c)
        = s • (A *ᵥ f A b - b) + t • (A *ᵥ f A c - c) := by
      rw [mulVec_add, mulVec_smul, mulVec_smul, smul_sub, smul_sub]; abel
    rw [e, add_dotProduct, smul_dotProduct, smul_dotProduct, hb.1, hc.1]; simp
  · intro v hv
    rw [add_dotProduct, smul_dotProduct, smul_dotProduct, hb.2 v hv, hc.2 v hv]; simp

/-- such a solver exists -/
theorem exists_lstsq : ∃ f : Matrix (Fin n) (Fin m) ℝ → (Fin n → ℝ) → (Fin m → ℝ), IsLstsq f := by
  suffices h : ∀ A : Matrix (Fin n) (Fin m) ℝ, ∀ b, ∃ x, MinNormLeastSquares A b x by
    choose f hf using h
    exact ⟨f, hf⟩
  intro A b
  let L := A.toEuclideanLin
  let K := LinearMap.range L
  let N := LinearMap.ker L
  let b' : EuclideanSpace ℝ (Fin n) := WithLp.toLp 2 b
  obtain ⟨y, hy, z, hz, e⟩ := K.exists_add_mem_mem_orthogonal b'
  obtain ⟨x0, hx0⟩ := hy
  obtain ⟨u, hu, x, hx, e2⟩ := N.exists_add_mem_mem_orthogonal x0
  have hLx : L x = y := by
    rw [← hx0, e2, map_add, show L u = 0 from hu, zero_add]
  refine ⟨WithLp.ofLp x, (minNorm_iff A b _).2 ⟨fun v => ?_, fun v hv => ?_⟩⟩
  · have h1 : inner ℝ (L (WithLp.toLp 2 v)) z = 0 := (Submodule.mem_orthogonal K z).1 hz _ ⟨_, rfl⟩
    have h2 : z = b' - L x := by rw [hLx, e]; abel
    rw [h2, inner_sub_right] at h1
    have e3 : ∀ p q : EuclideanSpace ℝ (Fin n), inner ℝ p q = WithLp.ofLp q ⬝ᵥ WithLp.ofLp p := by
      intro p q; simp [EuclideanSpace.inner_eq_star_dotProduct]
    rw [e3, e3] at h1
    have e4 : ∀ w, WithLp.ofLp (L w) = A *ᵥ WithLp.ofLp w := fun w => rfl
    rw [e4, e4] at h1
    rw [sub_dotProduct]
    have : WithLp.ofLp (WithLp.toLp 2 v : EuclideanSpace ℝ (Fin m)) = v := rfl
    rw [this] at h1
    have hb : WithLp.ofLp b' = b := rfl
    rw [hb] at h1
    linarith
  · have h1 : inner ℝ (WithLp.toLp 2 v : EuclideanSpace ℝ (Fin m)) x = 0 := by
      apply (Submodule.mem_orthogonal N x).1 hx
      show L _ = 0
      ext i
      exact congrFun hv i
    simpa [EuclideanSpace.inner_eq_star_dotProduct] using h1

end Dsps.Lemmas
