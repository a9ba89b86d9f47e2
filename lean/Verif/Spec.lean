import Mathlib.Algebra.BigOperators.Fin
import Mathlib.Data.Real.Basic

/-! Specification vocabulary used in the statements of the property theorems.  Nothing here refers to the model. -/
namespace Spec
open scoped BigOperators

/-- Non-negative entries with total exactly one. -/
def IsProbVector {ι : Type*} [Fintype ι] (w : ι → ℝ) : Prop := (∀ i, 0 ≤ w i) ∧ ∑ i, w i = 1

/-- Non-negative matrix with total exactly one. -/
def IsProbMatrix {ι κ : Type*} [Fintype ι] [Fintype κ] (w : ι → κ → ℝ) : Prop :=
  (∀ i j, 0 ≤ w i j) ∧ ∑ i, ∑ j, w i j = 1

/-- The area of the trapezoid under the chord from `(a, fa)` to `(b, fb)`. -/
noncomputable def trapezoidArea (a b fa fb : ℝ) : ℝ := (b - a) * (fa + fb) / 2

/-- A strictly increasing grid whose spacings never grow by a factor of three or more from one to the next, and whose
last spacing is more than a fifth of the one before. -/
def MildlySpaced {n : ℕ} (t : Fin (n + 3) → ℝ) : Prop :=
  StrictMono t ∧
  (∀ j : Fin (n + 1), t j.succ.succ - t j.succ.castSucc < 3 * (t j.castSucc.succ - t j.castSucc.castSucc)) ∧
  t (Fin.last (n + 1)).castSucc - t (Fin.last n).castSucc.castSucc
    < 5 * (t (Fin.last (n + 2)) - t (Fin.last (n + 1)).castSucc)

end Spec
