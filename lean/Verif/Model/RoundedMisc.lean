import Verif.Model.RoundedCosmo
import Verif.Model.Dust

/-! The effective wavelength of a filter (`/repo/dsps/dust/utils.py`) and the power law (`/repo/dsps/utils.py`) in machine arithmetic
(`Verif/Fl.lean`), operation by operation.  `A` is the arithmetic of JAX's dtype, `v` the relative accuracy of `pow`, `d` the longest chain of
additions in the sums over the filter. -/
namespace Dsps.Rounded
open Fl

variable (A : Arith) (v : ℝ) {n : ℕ}

/-- dust/utils.py:8-30 `get_filter_effective_wavelength` -/
noncomputable def get_filter_effective_wavelength (d : ℕ) (filter_wave filter_trans : Fin (n + 1) → ℝ) (redshift : ℝ) : Set ℝ :=
  {out | ∃ norm ∈ trapezoid A d filter_trans filter_wave, ∃ p ∈ vec fun i => A.mul (filter_trans i) (filter_wave i),
    ∃ num ∈ trapezoid A d p filter_wave, ∃ lambda_eff_rest ∈ A.div num norm, ∃ zp1 ∈ A.add 1 redshift, out ∈ A.div lambda_eff_rest zp1}

/-- utils.py:190-215 `powerlaw_pdf` (elementwise) -/
noncomputable def powerlaw_pdf (x a b g : ℝ) : Set ℝ :=
  {out | ∃ ag ∈ pow v a g, ∃ bg ∈ pow v b g, ∃ e ∈ A.sub g 1, ∃ p ∈ pow v x e, ∃ num ∈ A.mul g p, ∃ den ∈ A.sub bg ag, out ∈ A.div num den}

/-- utils.py:218-244 `powerlaw_rvs` (elementwise); `r` is the uniform deviate (a machine number) drawn for the element -/
noncomputable def powerlaw_rvs (r a b g : ℝ) : Set ℝ :=
  {out | ∃ ag ∈ pow v a g, ∃ bg ∈ pow v b g, ∃ diff ∈ A.sub bg ag, ∃ m ∈ A.mul diff r, ∃ s ∈ A.add ag m, ∃ e ∈ A.div 1.0 g, out ∈ pow v s e}

end Dsps.Rounded
