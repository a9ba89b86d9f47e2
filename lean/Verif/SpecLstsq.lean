import Mathlib.Data.Matrix.Mul
import Mathlib.Data.Real.Basic
import Mathlib.Data.Matrix.Reflection

/-! What `lstsq` means, for the statements of C62 and C63.  Nothing here refers to the model. -/
namespace Spec
open Matrix

variable {n m : ℕ}

/-- `x` minimises `|A x - b|²`. -/
def LeastSquares (A : Matrix (Fin n) (Fin m) ℝ) (b : Fin n → ℝ) (x : Fin m → ℝ) : Prop :=
  ∀ y, (A *ᵥ x - b) ⬝ᵥ (A *ᵥ x - b) ≤ (A *ᵥ y - b) ⬝ᵥ (A *ᵥ y - b)

/-- `x` is the least-squares solution of smallest norm (numpy's and JAX's `lstsq`). -/
def MinNormLeastSquares (A : Matrix (Fin n) (Fin m) ℝ) (b : Fin n → ℝ) (x : Fin m → ℝ) : Prop :=
  LeastSquares A b x ∧ ∀ y, LeastSquares A b y → x ⬝ᵥ x ≤ y ⬝ᵥ y

/-- A solver which returns the minimum-norm least-squares solution of every system. -/
def IsLstsq (lstsq : Matrix (Fin n) (Fin m) ℝ → (Fin n → ℝ) → (Fin m → ℝ)) : Prop :=
  ∀ A b, MinNormLeastSquares A b (lstsq A b)

end Spec
