import Verif.Model.NdCosmo
import Verif.Model.EquivalentWidth

/-! `/repo/dsps/em_lines/equivalent_width.py` on arrays of arbitrary shape, statement by statement, in the exception monad.
`jnp.linalg.lstsq` is a parameter `L` giving, for every number of samples, the solution for one right-hand side; for a matrix of
right-hand sides it is applied to each column, as numpy and JAX do. -/
namespace Dsps.NdEw
open Nd Py Dsps.NdCosmo

variable (L : (n : ℕ) → EquivalentWidth.Lstsq n)

/-- `jnp.vander(x, 3)`: raises unless `x` is one-dimensional -/
def vander3 (x : Arr ℝ) : Except PyErr (Arr ℝ) :=
  match x.shape with
  | [n] => .ok ⟨[n, 3], fun idx => match idx with | [i, k] => x.dat [i] ^ (2 - k) | _ => 0⟩
  | _ => .error .valueError

/-- `w[:, jnp.newaxis]` -/
def newaxis1 (w : Arr ℝ) : Except PyErr (Arr ℝ) :=
  match w.shape with
  | d :: s => .ok ⟨d :: 1 :: s, fun idx => match idx with | i :: _ :: r => w.dat (i :: r) | r => w.dat r⟩
  | [] => .error .indexError

/-- `w[jnp.newaxis, :]` -/
def newaxis0 (w : Arr ℝ) : Except PyErr (Arr ℝ) :=
  match w.shape with
  | d :: s => .ok ⟨1 :: d :: s, fun idx => w.dat idx.tail⟩
  | [] => .error .indexError

/-- `a.T` -/
def transpose (a : Arr ℝ) : Arr ℝ := ⟨a.shape.reverse, fun idx => a.dat idx.reverse⟩

/-- `jnp.linalg.lstsq(a, b)[0]` for a matrix of three columns: raises unless the leading dimensions agree and `b` has one or two
dimensions -/
def lstsq (a b : Arr ℝ) : Except PyErr (Arr ℝ) :=
  match a.shape, b.shape with
  | [n, 3], [m] =>
    if n = m then
      .ok ⟨[3], fun idx => match idx with
        | [k] => if h : k < 3 then L n (fun i c => a.dat [i.1, c.1]) (fun i => b.dat [i.1]) ⟨k, h⟩ else 0
        | _ => 0⟩
    else .error .valueError
  | [n, 3], [m, q] =>
    if n = m then
      .ok ⟨[3, q], fun idx => match idx with
        | [k, j] => if h : k < 3 then L n (fun i c => a.dat [i.1, c.1]) (fun i => b.dat [i.1, j]) ⟨k, h⟩ else 0
        | _ => 0⟩
    else .error .valueError
  | _, _ => .error .typeError

/-- `c2, c1, c0 = c` -/
def unpack3 (c : Arr ℝ) : Except PyErr (Arr ℝ × Arr ℝ × Arr ℝ) :=
  match c.shape with
  | 3 :: s => .ok (row c s 0, row c s 1, row c s 2)
  | _ => .error .valueError

/-- equivalent_width.py:9-14 `_get_quadfit_weights` -/
noncomputable def get_quadfit_weights (x x1 x2 x3 x4 : Arr ℝ) : Except PyErr (Arr ℝ) := do
  let msk_lo ← map2 (· ∧ ·) (← map2 (· ≥ ·) x x1) (← map2 (· ≤ ·) x x2)
  let msk_hi ← map2 (· ∧ ·) (← map2 (· ≥ ·) x x3) (← map2 (· ≤ ·) x x4)
  let msk ← map2 (· ∨ ·) msk_lo msk_hi
  where_ msk (scal 1) (scal 0)

/-- equivalent_width.py:17-20 `_get_integration_weights` -/
noncomputable def get_integration_weights (x x2 x3 : Arr ℝ) : Except PyErr (Arr ℝ) := do
  let msk ← map2 (· ∧ ·) (← map2 (· ≥ ·) x x2) (← map2 (· ≤ ·) x x3)
  where_ msk (scal 1) (scal 0)

/-- equivalent_width.py:23-39 `_weighted_quadratic_fit` -/
noncomputable def weighted_quadratic_fit (x y w : Arr ℝ) : Except PyErr (Arr ℝ) := do
  let lhs ← vander3 x
  let rhs := y
  let lhs ← map2 (· * ·) lhs (← newaxis1 w)
  let rhs ← map2 (· * ·) rhs w
  let scale := map Real.sqrt (← sum0 (← map2 (· * ·) lhs lhs))
  let lhs ← map2 (· / ·) lhs (← newaxis0 scale)
  let c ← lstsq L lhs rhs
  let q ← map2 (· / ·) (transpose c) scale
  return transpose q

/-- equivalent_width.py:74-103 `_continuum_line_decomp_kern` -/
noncomputable def continuum_line_decomp_kern (wave flux line_lo line_mid line_hi cont_lo_lo cont_lo_hi cont_hi_lo cont_hi_hi : Arr ℝ) :
    Except PyErr (Arr ℝ × Arr ℝ × Arr ℝ × Arr ℝ) := do
  let quadfit_w ← get_quadfit_weights wave cont_lo_lo cont_lo_hi cont_hi_lo cont_hi_hi
  let coeffs ← weighted_quadratic_fit L wave flux quadfit_w
  let (c2, c1, c0) ← unpack3 coeffs
  let continuum_strength_at_line ← map2 (· + ·) (← map2 (· + ·) c0 (← map2 (· * ·) c1 line_mid))
    (← map2 (· * ·) c2 (map (· ^ 2) line_mid))
  let int_w ← get_integration_weights wave line_lo line_hi
  let continuum_integrand ← map2 (· * ·) int_w (← map2 (· + ·) (← map2 (· + ·) c0 (← map2 (· * ·) c1 wave))
    (← map2 (· * ·) (← map2 (· * ·) c2 wave) wave))
  let spec_integrand ← map2 (· * ·) int_w flux
  let continuum_flux_integral ← trapz wave continuum_integrand
  let spec_flux_integral ← trapz wave spec_integrand
  let total_line_flux ← map2 (· - ·) spec_flux_integral continuum_flux_integral
  let equivalent_width ← map2 (· / ·) total_line_flux continuum_strength_at_line
  return (equivalent_width, total_line_flux, continuum_strength_at_line, coeffs)

/-- equivalent_width.py:42-71 `_ew_kernel` -/
noncomputable def ew_kernel (wave flux line_lo line_mid line_hi cont_lo_lo cont_lo_hi cont_hi_lo cont_hi_hi : Arr ℝ) :
    Except PyErr (Arr ℝ × Arr ℝ) := do
  let quadfit_w ← get_quadfit_weights wave cont_lo_lo cont_lo_hi cont_hi_lo cont_hi_hi
  let c ← weighted_quadratic_fit L wave flux quadfit_w
  let (c2, c1, c0) ← unpack3 c
  let continuum_strength_at_line ← map2 (· + ·) (← map2 (· + ·) c0 (← map2 (· * ·) c1 line_mid))
    (← map2 (· * ·) c2 (map (· ^ 2) line_mid))
  let int_w ← get_integration_weights wave line_lo line_hi
  let continuum_integrand ← map2 (· * ·) int_w (← map2 (· + ·) (← map2 (· + ·) c0 (← map2 (· * ·) c1 wave))
    (← map2 (· * ·) (← map2 (· * ·) c2 wave) wave))
  let spec_integrand ← map2 (· * ·) int_w flux
  let continuum_flux_integral ← trapz wave continuum_integrand
  let spec_flux_integral ← trapz wave spec_integrand
  let total_line_flux ← map2 (· - ·) spec_flux_integral continuum_flux_integral
  let equivalent_width ← map2 (· / ·) total_line_flux continuum_strength_at_line
  return (equivalent_width, total_line_flux)

end Dsps.NdEw
