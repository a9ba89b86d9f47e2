import Verif.Jnp
import Mathlib.Data.Fintype.Fin
import Mathlib.Order.Interval.Finset.Fin
import Mathlib.Data.Nat.Log

/-! The binary search that `jnp.searchsorted(xp, x, side="right")` actually runs (JAX's default method "scan",
`jax/_src/numpy/lax_numpy.py: _searchsorted_via_scan`) computes the count used by `Jnp.searchsortedRight`, for every sorted array
of every length. -/
namespace Jnp

variable {n : ℕ}

/-- One step of `body_fun`: `mid = (low + high) // 2`, `go_left = query < sorted_arr[mid]` (JAX clamps the index of a gather). -/
noncomputable def searchStep (xp : Fin (n + 1) → ℝ) (x : ℝ) (state : ℕ × ℕ) : ℕ × ℕ :=
  open Classical in
  let low := state.1
  let high := state.2
  let mid := (low + high) / 2
  let go_left := x < xp ⟨min mid n, by omega⟩
  (if go_left then low else mid, if go_left then mid else high)

/-- `n_levels = int(ceil(log2(len(sorted_arr) + 1)))`, `lax.scan` over `n_levels` steps from `(0, len)`, result `carry[1]`. -/
noncomputable def searchScan (xp : Fin (n + 1) → ℝ) (x : ℝ) : ℕ :=
  ((searchStep xp x)^[Nat.clog 2 (n + 1 + 1)] (0, n + 1)).2

/-- what is known about the state with `r` steps to go -/
def SearchInv (xp : Fin (n + 1) → ℝ) (x : ℝ) (r : ℕ) (s : ℕ × ℕ) : Prop :=
  s.2 ≤ n + 1 ∧ (∀ h : s.2 < n + 1, x < xp ⟨s.2, h⟩) ∧
  ((s.1 < s.2 ∧ s.2 - s.1 ≤ 2 ^ r ∧ ∀ h : s.1 < n + 1, xp ⟨s.1, h⟩ ≤ x) ∨ (s.1 = 0 ∧ s.2 < 2 ^ r))

theorem searchInv_step (xp : Fin (n + 1) → ℝ) (x : ℝ) (r : ℕ) (s : ℕ × ℕ) (h : SearchInv xp x (r + 1) s) :
    SearchInv xp x r (searchStep xp x s) := by
  obtain ⟨lo, hi⟩ := s
  obtain ⟨h1, h2, h3⟩ := h
  simp only at h1 h2 h3
  have hp : 2 ^ (r + 1) = 2 * 2 ^ r := by rw [pow_succ]; ring
  rw [hp] at h3
  have hpos : 0 < 2 ^ r := by positivity
  unfold searchStep
  simp only
  split_ifs with hgo
  · -- go left
    refine ⟨by simp only; rcases h3 with h3 | h3 <;> omega, fun hm => ?_, ?_⟩
    · simp only at hm ⊢
      have : min ((lo + hi) / 2) n = (lo + hi) / 2 := by omega
      simpa only [this] using hgo
    · rcases h3 with ⟨a, b, c⟩ | ⟨a, b⟩
      · left
        simp only
        refine ⟨?_, by omega, c⟩
        by_contra hle
        have e : (lo + hi) / 2 = lo := by omega
        have e2 : min ((lo + hi) / 2) n = lo := by omega
        simp only [e2] at hgo
        exact absurd (c (by omega)) (not_le.2 hgo)
      · right
        simp only
        exact ⟨a, by omega⟩
  · -- go right
    refine ⟨h1, h2, ?_⟩
    simp only
    by_cases hz : hi = 0
    · exfalso
      subst hz
      have hlo : lo = 0 := by rcases h3 with h3 | h3 <;> omega
      subst hlo
      exact hgo (by simpa using h2 (by omega))
    · left
      have hlt : lo < hi := by rcases h3 with h3 | h3 <;> omega
      refine ⟨by omega, by rcases h3 with h3 | h3 <;> omega, fun hm => ?_⟩
      have : min ((lo + hi) / 2) n = (lo + hi) / 2 := by omega
      simp only [this] at hgo
      exact not_lt.1 hgo

theorem searchInv_iterate (xp : Fin (n + 1) → ℝ) (x : ℝ) (r : ℕ) (s : ℕ × ℕ) (h : SearchInv xp x r s) :
    SearchInv xp x 0 ((searchStep xp x)^[r] s) := by
  induction r generalizing s with
  | zero => exact h
  | succ r ih => rw [Function.iterate_succ_apply]; exact ih _ (searchInv_step xp x r s h)

/-- The binary search of JAX returns the number of entries `≤ x`, on every sorted array. -/
theorem searchScan_eq (xp : Fin (n + 1) → ℝ) (hxp : Monotone xp) (x : ℝ) : searchScan xp x = searchsortedRight xp x := by
  classical
  have h0 : SearchInv xp x (Nat.clog 2 (n + 1 + 1)) (0, n + 1) :=
    ⟨le_rfl, fun h => absurd h (lt_irrefl _), Or.inr ⟨rfl, by have := Nat.le_pow_clog (b := 2) (by norm_num) (n + 1 + 1); simp only; omega⟩⟩
  have h := searchInv_iterate xp x _ _ h0
  unfold searchScan searchsortedRight
  set s := (searchStep xp x)^[Nat.clog 2 (n + 1 + 1)] (0, n + 1)
  obtain ⟨h1, h2, h3⟩ := h
  have key : ∀ j : Fin (n + 1), xp j ≤ x ↔ (j : ℕ) < s.2 := by
    intro j
    constructor
    · intro hj
      by_contra hle
      have hlt : s.2 < n + 1 := by have := j.2; omega
      exact absurd ((hxp (show (⟨s.2, hlt⟩ : Fin (n + 1)) ≤ j from not_lt.1 hle)).trans hj) (not_le.2 (h2 hlt))
    · intro hj
      rcases h3 with ⟨a, b, c⟩ | ⟨a, b⟩
      · have e : s.2 = s.1 + 1 := by simp at b; omega
        have hlt : s.1 < n + 1 := by omega
        exact (hxp (show j ≤ (⟨s.1, hlt⟩ : Fin (n + 1)) from by rw [Fin.le_def]; simp only; omega)).trans (c hlt)
      · simp at b; omega
  simp only [key]
  rw [Fin.card_filter_val_lt]
  omega

/-- Non-vacuity: a concrete search. -/
example : searchScan ![(1 : ℝ), 2, 5] 3 = 2 := by
  rw [searchScan_eq _ (by intro i j; fin_cases i <;> fin_cases j <;> simp <;> norm_num)]
  unfold searchsortedRight
  classical
  rw [show (Finset.univ.filter fun j : Fin 3 => ![(1 : ℝ), 2, 5] j ≤ 3) = {0, 1} by
    ext j; fin_cases j <;> simp <;> norm_num]
  rfl

end Jnp
