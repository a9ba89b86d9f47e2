import Verif.Lemmas.LcdmBox

/-! The one large computation of the project: the kernel runs the verified interval checker of `Verif.Lemmas.LcdmBox` on
the rectangle `s ∈ [0,1]`, `y ∈ [1/8, 12]` (about 2600 leaf rectangles). -/
namespace Dsps.Lemmas.Box

theorem go_true : go 40 0 1048576 131072 12582912 = true := by decide +kernel

/-- Everywhere on the rectangle some `bound j` is positive. -/
theorem covered {s y : ℝ} (hs : 0 ≤ s) (hs1 : s ≤ 1) (hy : 1 / 8 ≤ y) (hy1 : y ≤ 12) :
    ∃ j : ℕ, j ≤ 200 ∧ 6 ≤ ((j : ℝ) + 1 / 2) * y ∧ 0 < bound j s y :=
  go_spec _ _ _ _ _ go_true s y ⟨by simpa using hs, by norm_num [D]; exact hs1, by norm_num [D]; linarith, by
    norm_num [D]; exact hy1⟩

end Dsps.Lemmas.Box
