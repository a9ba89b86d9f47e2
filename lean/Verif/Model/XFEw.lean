import Verif.Model.XFPhot
import Verif.Model.XFSed

/-! Float model (nan, inf) of `/repo/dsps/em_lines/equivalent_width.py`.  `jnp.linalg.lstsq` is again a parameter. -/
namespace Dsps.XFEw
open XF Dsps.XFSed
open Classical

variable {n : ℕ}

/-- signature of `jnp.linalg.lstsq` on floats -/
abbrev Lstsq (n : ℕ) := (Fin n → Fin 3 → XF) → (Fin n → XF) → (Fin 3 → XF)

/-- equivalent_width.py:9-14 `_get_quadfit_weights` (elementwise) -/
noncomputable def get_quadfit_weights (x x1 x2 x3 x4 : XF) : XF :=
  let msk_lo : Prop := x1 ≤ x ∧ x ≤ x2
  let msk_hi : Prop := x3 ≤ x ∧ x ≤ x4
  let msk : Prop := msk_lo ∨ msk_hi
  if msk then 1 else 0

/-- equivalent_width.py:17-20 `_get_integration_weights` (elementwise) -/
noncomputable def get_integration_weights (x x2 x3 : XF) : XF :=
  let msk : Prop := x2 ≤ x ∧ x ≤ x3
  if msk then 1 else 0

/-- `jnp.vander(x, 3)` -/
noncomputable def vander3 (x : Fin n → XF) : Fin n → Fin 3 → XF := fun i k => x i ^ (2 - (k : ℕ))

/-- equivalent_width.py:23-39 `_weighted_quadratic_fit` -/
noncomputable def weighted_quadratic_fit (lstsq : Lstsq n) (x y w : Fin n → XF) : Fin 3 → XF :=
  let lhs := vander3 x
  let rhs := y
  let lhs := fun i k => lhs i k * w i
  let rhs := fun i => rhs i * w i
  let scale : Fin 3 → XF := fun k => XFPhot.sqrt (XF.sum fun i => lhs i k * lhs i k)
  let lhs := fun i k => lhs i k / scale k
  let c := lstsq lhs rhs
  fun k => c k / scale k

/-- equivalent_width.py:74-103 `_continuum_line_decomp_kern`:
(equivalent_width, total_line_flux, continuum_strength_at_line, coeffs) -/
noncomputable def continuum_line_decomp_kern (lstsq : Lstsq (n + 1)) (wave flux : Fin (n + 1) → XF)
    (line_lo line_mid line_hi cont_lo_lo cont_lo_hi cont_hi_lo cont_hi_hi : XF) : XF × XF × XF × (Fin 3 → XF) :=
  let quadfit_w := fun i => get_quadfit_weights (wave i) cont_lo_lo cont_lo_hi cont_hi_lo cont_hi_hi
  let coeffs := weighted_quadratic_fit lstsq wave flux quadfit_w
  let c2 := coeffs 0
  let c1 := coeffs 1
  let c0 := coeffs 2
  let continuum_strength_at_line := c0 + c1 * line_mid + c2 * line_mid ^ 2
  let int_w := fun i => get_integration_weights (wave i) line_lo line_hi
  let continuum_integrand := fun i => int_w i * (c0 + c1 * wave i + c2 * wave i * wave i)
  let spec_integrand := fun i => int_w i * flux i
  let continuum_flux_integral := trapz wave continuum_integrand
  let spec_flux_integral := trapz wave spec_integrand
  let total_line_flux := spec_flux_integral - continuum_flux_integral
  let equivalent_width := total_line_flux / continuum_strength_at_line
  (equivalent_width, total_line_flux, continuum_strength_at_line, coeffs)

/-- equivalent_width.py:42-71 `_ew_kernel`: (equivalent_width, total_line_flux) -/
noncomputable def ew_kernel (lstsq : Lstsq (n + 1)) (wave flux : Fin (n + 1) → XF)
    (line_lo line_mid line_hi cont_lo_lo cont_lo_hi cont_hi_lo cont_hi_hi : XF) : XF × XF :=
  let quadfit_w := fun i => get_quadfit_weights (wave i) cont_lo_lo cont_lo_hi cont_hi_lo cont_hi_hi
  let c := weighted_quadratic_fit lstsq wave flux quadfit_w
  let c2 := c 0
  let c1 := c 1
  let c0 := c 2
  let continuum_strength_at_line := c0 + c1 * line_mid + c2 * line_mid ^ 2
  let int_w := fun i => get_integration_weights (wave i) line_lo line_hi
  let continuum_integrand := fun i => int_w i * (c0 + c1 * wave i + c2 * wave i * wave i)
  let spec_integrand := fun i => int_w i * flux i
  let continuum_flux_integral := trapz wave continuum_integrand
  let spec_flux_integral := trapz wave spec_integrand
  let total_line_flux := spec_flux_integral - continuum_flux_integral
  let equivalent_width := total_line_flux / continuum_strength_at_line
  (equivalent_width, total_line_flux)

end Dsps.XFEw
