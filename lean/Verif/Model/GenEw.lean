/- Continuation of `Model/Gen.lean`: the equivalent width over an abstract float type. -/
import Verif.Model.Gen
import Verif.Model.JaxLstsq

/-! The wavelengths are constants of the differentiation (plain numbers), flux, line centre and window edges are recorded.  The design matrix of
the fit then depends on nothing that carries a gradient: comparisons and integer weights carry none, so that JAX evaluates the singular value
decomposition without differentiating it, and back-propagates through the three matrix products of `lstsq` only (the residuals it also computes
are not used).  The matrix is computed in exact arithmetic: this is what floats give when `scale` has no zero, i.e. when some sample with nonzero
wavelength is in the continuum windows; the theorems assume so. -/
namespace Dsps.Gen
open Flt Spec

variable {α : Type} [Flt α] {n : ℕ}

open Classical in
/-- equivalent_width.py:9-14 `_get_quadfit_weights` (elementwise); an integer, carries no gradient -/
noncomputable def get_quadfit_weights (x : ℝ) (x1 x2 x3 x4 : α) : ℝ :=
  let msk_lo : Prop := le x1 (lit x) ∧ le (lit x) x2
  let msk_hi : Prop := le x3 (lit x) ∧ le (lit x) x4
  let msk : Prop := msk_lo ∨ msk_hi
  if msk then 1 else 0

open Classical in
/-- equivalent_width.py:17-20 `_get_integration_weights` (elementwise); an integer, carries no gradient -/
noncomputable def get_integration_weights (x : ℝ) (x2 x3 : α) : ℝ :=
  let msk : Prop := le x2 (lit x) ∧ le (lit x) x3
  if msk then 1 else 0

open Classical in
/-- JAX's `lstsq` (see `Model/JaxLstsq.lean`): `vt.T @ (s_inv * (u.T @ b))`, with a constant matrix -/
noncomputable def jax_lstsq {m : ℕ} (rcond : ℝ) (svd : ∀ A : Matrix (Fin n) (Fin m) ℝ, Svd A) (A : Matrix (Fin n) (Fin m) ℝ) (b : Fin n → α) :
    Fin m → α :=
  let D := svd A
  let s_inv : Fin (min n m) → ℝ := fun k => if EquivalentWidth.keeps rcond D k then 1 / D.s k else 0
  let uTb := fun k => sum (fun i => lit (D.u k i) * b i)
  fun j => sum fun k => lit (D.v k j) * (lit (s_inv k) * uTb k)

/-- equivalent_width.py:23-39 `_weighted_quadratic_fit` -/
noncomputable def weighted_quadratic_fit (rcond : ℝ) (svd : ∀ A : Matrix (Fin n) (Fin 3) ℝ, Svd A) (x : Fin n → ℝ) (y : Fin n → α)
    (w : Fin n → ℝ) : Fin 3 → α :=
  let lhs := EquivalentWidth.vander3 x
  let rhs := y
  let lhs : Matrix (Fin n) (Fin 3) ℝ := fun i k => lhs i k * w i
  let rhs := fun i => rhs i * lit (w i)
  let scale : Fin 3 → ℝ := fun k => Real.sqrt (∑ i, lhs i k * lhs i k)
  let lhs : Matrix (Fin n) (Fin 3) ℝ := fun i k => lhs i k / scale k
  let c := jax_lstsq rcond svd lhs rhs
  fun k => c k / lit (scale k)

/-- equivalent_width.py:74-103 `_continuum_line_decomp_kern`:
(equivalent_width, total_line_flux, continuum_strength_at_line, coeffs) -/
noncomputable def continuum_line_decomp_kern (rcond : ℝ) (svd : ∀ A : Matrix (Fin (n + 1)) (Fin 3) ℝ, Svd A) (wave : Fin (n + 1) → ℝ)
    (flux : Fin (n + 1) → α) (line_lo line_mid line_hi cont_lo_lo cont_lo_hi cont_hi_lo cont_hi_hi : α) : α × α × α × (Fin 3 → α) :=
  let quadfit_w := fun i => get_quadfit_weights (wave i) cont_lo_lo cont_lo_hi cont_hi_lo cont_hi_hi
  let coeffs := weighted_quadratic_fit rcond svd wave flux quadfit_w
  let c2 := take coeffs 0
  let c1 := take coeffs 1
  let c0 := take coeffs 2
  let continuum_strength_at_line := c0 + c1 * line_mid + c2 * ipow line_mid 2
  let int_w := fun i => get_integration_weights (wave i) line_lo line_hi
  let continuum_integrand := fun i => lit (int_w i) * (c0 + c1 * lit (wave i) + c2 * lit (wave i) * lit (wave i))
  let spec_integrand := fun i => lit (int_w i) * flux i
  let continuum_flux_integral := trapz (fun i => lit (wave i)) continuum_integrand
  let spec_flux_integral := trapz (fun i => lit (wave i)) spec_integrand
  let total_line_flux := spec_flux_integral - continuum_flux_integral
  let equivalent_width := total_line_flux / continuum_strength_at_line
  (equivalent_width, total_line_flux, continuum_strength_at_line, coeffs)

/-- equivalent_width.py:42-71 `_ew_kernel`: (equivalent_width, total_line_flux) -/
noncomputable def ew_kernel (rcond : ℝ) (svd : ∀ A : Matrix (Fin (n + 1)) (Fin 3) ℝ, Svd A) (wave : Fin (n + 1) → ℝ)
    (flux : Fin (n + 1) → α) (line_lo line_mid line_hi cont_lo_lo cont_lo_hi cont_hi_lo cont_hi_hi : α) : α × α :=
  let quadfit_w := fun i => get_quadfit_weights (wave i) cont_lo_lo cont_lo_hi cont_hi_lo cont_hi_hi
  let c := weighted_quadratic_fit rcond svd wave flux quadfit_w
  let c2 := take c 0
  let c1 := take c 1
  let c0 := take c 2
  let continuum_strength_at_line := c0 + c1 * line_mid + c2 * ipow line_mid 2
  let int_w := fun i => get_integration_weights (wave i) line_lo line_hi
  let continuum_integrand := fun i => lit (int_w i) * (c0 + c1 * lit (wave i) + c2 * lit (wave i) * lit (wave i))
  let spec_integrand := fun i => lit (int_w i) * flux i
  let continuum_flux_integral := trapz (fun i => lit (wave i)) continuum_integrand
  let spec_flux_integral := trapz (fun i => lit (wave i)) spec_integrand
  let total_line_flux := spec_flux_integral - continuum_flux_integral
  let equivalent_width := total_line_flux / continuum_strength_at_line
  (equivalent_width, total_line_flux)

end Dsps.Gen
