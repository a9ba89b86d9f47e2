import Verif.Model.Utils
import Mathlib.Data.Matrix.Mul

/-! Model of `/repo/dsps/em_lines/equivalent_width.py`.  `jnp.linalg.lstsq` is a parameter `lstsq`; the theorems assume only
that it returns the minimum-norm least-squares solution (`Spec.IsLstsq`).  (JAX also discards singular values below
machine epsilon times the number of samples times the largest one: `Model/JaxLstsq.lean`.) -/
namespace Dsps.EquivalentWidth
open Jnp Dsps.Utils

variable {n : ℕ}

/-- The signature of `jnp.linalg.lstsq` (its first output). -/
abbrev Lstsq (n : ℕ) := Matrix (Fin n) (Fin 3) ℝ → (Fin n → ℝ) → (Fin 3 → ℝ)

open Classical in
/-- equivalent_width.py:9-14 `_get_quadfit_weights` (elementwise) -/
noncomputable def get_quadfit_weights (x x1 x2 x3 x4 : ℝ) : ℝ :=
  let msk_lo : Prop := x ≥ x1 ∧ x ≤ x2
  let msk_hi : Prop := x ≥ x3 ∧ x ≤ x4
  let msk : Prop := msk_lo ∨ msk_hi
  if msk then 1 else 0

open Classical in
/-- equivalent_width.py:17-20 `_get_integration_weights` (elementwise) -/
noncomputable def get_integration_weights (x x2 x3 : ℝ) : ℝ :=
  let msk : Prop := x ≥ x2 ∧ x ≤ x3
  if msk then 1 else 0

/-- `jnp.vander(x, 3)`: columns `x², x, 1` -/
def vander3 (x : Fin n → ℝ) : Matrix (Fin n) (Fin 3) ℝ := fun i k => x i ^ (2 - (k : ℕ))

/-- equivalent_width.py:23-39 `_weighted_quadratic_fit`; result in the order `c2, c1, c0`.  When no sample with nonzero
wavelength has nonzero weight, `scale` has a zero and the code returns nan; the theorems exclude this. -/
noncomputable def weighted_quadratic_fit (lstsq : Lstsq n) (x y w : Fin n → ℝ) : Fin 3 → ℝ :=
  let lhs := vander3 x
  let rhs := y
  let lhs : Matrix (Fin n) (Fin 3) ℝ := fun i k => lhs i k * w i
  let rhs := fun i => rhs i * w i
  let scale : Fin 3 → ℝ := fun k => Real.sqrt (∑ i, lhs i k * lhs i k)
  let lhs : Matrix (Fin n) (Fin 3) ℝ := fun i k => lhs i k / scale k
  let c := lstsq lhs rhs
  fun k => c k / scale k

/-- equivalent_width.py:42-71 `_ew_kernel`: (equivalent_width, total_line_flux) -/
noncomputable def ew_kernel (lstsq : Lstsq (n + 1)) (wave flux : Fin (n + 1) → ℝ)
    (line_lo line_mid line_hi cont_lo_lo cont_lo_hi cont_hi_lo cont_hi_hi : ℝ) : ℝ × ℝ :=
  let quadfit_w := fun i => get_quadfit_weights (wave i) cont_lo_lo cont_lo_hi cont_hi_lo cont_hi_hi
  let c := weighted_quadratic_fit lstsq wave flux quadfit_w
  let c2 := c 0
  let c1 := c 1
  let c0 := c 2
  let continuum_strength_at_line := c0 + c1 * line_mid + c2 * line_mid ^ 2
  let int_w := fun i => get_integration_weights (wave i) line_lo line_hi
  let continuum_integrand := fun i => int_w i * (c0 + c1 * wave i + c2 * wave i * wave i)
  let spec_integrand := fun i => int_w i * flux i
  let continuum_flux_integral := trapz wave continuum_integrand
  let spec_flux_integral := trapz wave spec_integrand
  let total_line_flux := spec_flux_integral - continuum_flux_integral
  let equivalent_width := total_line_flux / continuum_strength_at_line
  (equivalent_width, total_line_flux)

/-- equivalent_width.py:74-103 `_continuum_line_decomp_kern`:
(equivalent_width, total_line_flux, continuum_strength_at_line, coeffs) -/
noncomputable def continuum_line_decomp_kern (lstsq : Lstsq (n + 1)) (wave flux : Fin (n + 1) → ℝ)
    (line_lo line_mid line_hi cont_lo_lo cont_lo_hi cont_hi_lo cont_hi_hi : ℝ) : ℝ × ℝ × ℝ × (Fin 3 → ℝ) :=
  let quadfit_w := fun i => get_quadfit_weights (wave i) cont_lo_lo cont_lo_hi cont_hi_lo cont_hi_hi
  let coeffs := weighted_quadratic_fit lstsq wave flux quadfit_w
  let c2 := coeffs 0
  let c1 := coeffs 1
  let c0 := coeffs 2
  let continuum_strength_at_line := c0 + c1 * line_mid + c2 * line_mid ^ 2
  let int_w := fun i => get_integration_weights (wave i) line_lo line_hi
  let continuum_integrand := fun i => int_w i * (c0 + c1 * wave i + c2 * wave i * wave i)
  let spec_integrand := fun i => int_w i * flux i
  let continuum_flux_integral := trapz wave continuum_integrand
  let spec_flux_integral := trapz wave spec_integrand
  let total_line_flux := spec_flux_integral - continuum_flux_integral
  let equivalent_width := total_line_flux / continuum_strength_at_line
  (equivalent_width, total_line_flux, continuum_strength_at_line, coeffs)

end Dsps.EquivalentWidth
