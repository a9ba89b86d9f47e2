import Verif.Model.EquivalentWidth
import Verif.SpecSvd

/-! `jnp.linalg.lstsq` (called in `/repo/dsps/em_lines/equivalent_width.py:36`) with its singular value cutoff, as in
`jax/_src/numpy/linalg.py:_lstsq`:
```
rcond = jnp.finfo(dtype).eps * max(n, m)
u, s, vt = svd(a, full_matrices=False)
mask = (s > 0) & (s >= rcond * s[0])
s_inv = jnp.where(mask, 1 / safe_s, 0)[:, None]
x = vt.T @ (s_inv * (u.T @ b))
```
Arithmetic is exact; which singular value decomposition the library returns is arbitrary. -/
namespace Dsps.EquivalentWidth
open Matrix Spec

variable {n m : ℕ}

/-- `mask = (s > 0) & (s >= rcond * s[0])`; `s[0]` is the largest singular value, so the comparison is with all of them -/
def keeps {A : Matrix (Fin n) (Fin m) ℝ} (rcond : ℝ) (D : Svd A) (k : Fin (min n m)) : Prop :=
  0 < D.s k ∧ ∀ l, rcond * D.s l ≤ D.s k

open Classical in
/-- `x = vt.T @ (where(mask, 1/s, 0) * (u.T @ b))` -/
noncomputable def svd_solve {A : Matrix (Fin n) (Fin m) ℝ} (rcond : ℝ) (D : Svd A) (b : Fin n → ℝ) : Fin m → ℝ :=
  fun j => ∑ k, D.v k j * ((if keeps rcond D k then 1 / D.s k else 0) * (D.u k ⬝ᵥ b))

/-- JAX's `lstsq`, given the `svd` it calls. -/
noncomputable def jax_lstsq (rcond : ℝ) (svd : ∀ A : Matrix (Fin n) (Fin m) ℝ, Svd A) (A : Matrix (Fin n) (Fin m) ℝ)
    (b : Fin n → ℝ) : Fin m → ℝ :=
  svd_solve rcond (svd A) b

/-- `jnp.finfo(dtype).eps * max(n, m)`; `eps` is `2^-52` for float64, `2^-23` for float32 -/
noncomputable def default_rcond (eps : ℝ) (n m : ℕ) : ℝ := eps * (max n m : ℕ)

end Dsps.EquivalentWidth
