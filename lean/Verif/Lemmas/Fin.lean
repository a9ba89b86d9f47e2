import Verif.Jnp

/-! Generic facts about finite arrays. -/
namespace Dsps.Lemmas
open scoped BigOperators
open Jnp

variable {n : ℕ}

theorem sum_telescope (f : Fin (n + 1) → ℝ) :
    ∑ i : Fin n, (f i.succ - f i.castSucc) = f (Fin.last n) - f 0 := by
  induction n with
  | zero => simp
  | succ n ih =>
    rw [Fin.sum_univ_castSucc]
    have h := ih (fun i => f i.castSucc)
    simp only [Fin.succ_castSucc, Fin.castSucc_zero] at *
    rw [h, Fin.succ_last]; ring

theorem sum_telescope' (f : Fin (n + 1) → ℝ) :
    ∑ i : Fin n, (f i.castSucc - f i.succ) = f 0 - f (Fin.last n) := by
  rw [← neg_sub (f (Fin.last n)), ← sum_telescope f, ← Finset.sum_neg_distrib]
  exact Finset.sum_congr rfl fun i _ => by ring

end Dsps.Lemmas
