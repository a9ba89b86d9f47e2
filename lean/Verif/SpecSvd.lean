import Mathlib.Data.Matrix.Mul
import Mathlib.Data.Real.Basic

/-! Singular value decompositions, for the statements of C116.  Nothing here refers to the model. -/
namespace Spec
open Matrix

variable {n m : ℕ}

/-- A reduced singular value decomposition `A = U diag(s) Vᵀ` with `min n m` singular values in decreasing order:
`u k` and `v k` are the columns of `U` and `V`. -/
structure Svd (A : Matrix (Fin n) (Fin m) ℝ) where
  u : Fin (min n m) → Fin n → ℝ
  s : Fin (min n m) → ℝ
  v : Fin (min n m) → Fin m → ℝ
  u_orth : ∀ k l, u k ⬝ᵥ u l = if k = l then 1 else 0
  v_orth : ∀ k l, v k ⬝ᵥ v l = if k = l then 1 else 0
  nonneg : ∀ k, 0 ≤ s k
  anti : Antitone s
  eq : ∀ i j, A i j = ∑ k, u k i * s k * v k j

end Spec
