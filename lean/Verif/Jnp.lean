/-
The fragment of numpy / jax.numpy used by dsps, over exact reals.

Arrays have a static shape in JAX, so an array of length `n` is a function `Fin n → α`.
`jnp.where(c, a, b)` is written `if c then a else b`.  Nothing here models rounding.  Where JAX would produce nan or inf (division by zero, log of a non-positive
number) the real-valued operations below return Lean's conventional values; the property theorems carry
guards, and `Verif/XF.lean` models the non-finite values separately.
-/
import Mathlib.Analysis.SpecialFunctions.Pow.Real
import Mathlib.Analysis.SpecialFunctions.Log.Base
import Mathlib.Algebra.BigOperators.Fin
import Mathlib.Data.Fin.Tuple.Basic

open scoped BigOperators

namespace Jnp

variable {α : Type*} {n : ℕ}

/-- `a[:-1]` for a non-empty array. -/
def init (a : Fin (n + 1) → α) : Fin n → α := fun i => a i.castSucc

/-- `a[1:]` for a non-empty array. -/
def tail (a : Fin (n + 1) → α) : Fin n → α := fun i => a i.succ

/-- `a[-1]` -/
def last (a : Fin (n + 1) → α) : α := a (Fin.last n)

/-- `jnp.diff(a)` : `a[1:] - a[:-1]` -/
def diff (a : Fin (n + 1) → ℝ) : Fin n → ℝ := fun i => tail a i - init a i

/-- `a.at[i].set(v)` -/
def setAt (a : Fin n → α) (i : Fin n) (v : α) : Fin n → α := Function.update a i v

/-- `a.at[:-1].set(v)` -/
def setInit (a : Fin (n + 1) → α) (v : Fin n → α) : Fin (n + 1) → α :=
  Fin.snoc (α := fun _ => α) v (a (Fin.last n))

/-- `a.at[1:].set(v)` -/
def setTail (a : Fin (n + 1) → α) (v : Fin n → α) : Fin (n + 1) → α :=
  Fin.cons (α := fun _ => α) (a 0) v

/-- `a.at[1:-1].set(v)` for an array of length at least two. -/
def setInterior (a : Fin (n + 2) → α) (v : Fin n → α) : Fin (n + 2) → α :=
  setTail a (setInit (tail a) v)

/-- `jax.vmap(f)(xs)` over the leading axis. -/
def vmap {β : Type*} (f : α → β) (xs : Fin n → α) : Fin n → β := fun i => f (xs i)

/-- `jax.vmap(f, in_axes=(0, 0))(xs, ys)` -/
def vmap₂ {β γ : Type*} (f : α → β → γ) (xs : Fin n → α) (ys : Fin n → β) : Fin n → γ :=
  fun i => f (xs i) (ys i)

/-- `jax.vmap(f, in_axes=(0, 0, 0))(xs, ys, zs)` -/
def vmap₃ {β γ δ : Type*} (f : α → β → γ → δ) (xs : Fin n → α) (ys : Fin n → β) (zs : Fin n → γ) :
    Fin n → δ := fun i => f (xs i) (ys i) (zs i)

/-- `jnp.zeros(n)` -/
def zeros (n : ℕ) : Fin n → ℝ := fun _ => 0

/-- `jnp.sum(a)` -/
noncomputable def sum (a : Fin n → ℝ) : ℝ := ∑ i, a i

/-- `jnp.clip(x, lo, hi)`: `minimum(maximum(x, lo), hi)` -/
noncomputable def clip (x lo hi : ℝ) : ℝ := min (max x lo) hi

/-- `jnp.trapezoid(y, x)`: `0.5 * (diff(x) * (y[1:] + y[:-1])).sum()` (same in `numpy.trapezoid` up to
the association of the factor one half). -/
noncomputable def trapezoid (y x : Fin (n + 1) → ℝ) : ℝ :=
  0.5 * sum (fun i => diff x i * (tail y i + init y i))

/-- `jax.lax.scan(f, init, xs)` : final carry and stacked outputs. -/
def scan {σ β γ : Type*} (f : σ → β → σ × γ) : (s : σ) → {n : ℕ} → (Fin n → β) → σ × (Fin n → γ)
  | s, 0, _ => (s, Fin.elim0)
  | s, _ + 1, xs =>
    let r := f s (xs 0)
    let rest := scan f r.1 (fun i => xs i.succ)
    (rest.1, Fin.cons (α := fun _ => γ) r.2 rest.2)

/-- `jax.nn.sigmoid` -/
noncomputable def sigmoid (x : ℝ) : ℝ := 1 / (1 + Real.exp (-x))

/-- `jnp.log10` -/
noncomputable def log10 (x : ℝ) : ℝ := Real.logb 10 x

/-- `10 ** x` -/
noncomputable def exp10 (x : ℝ) : ℝ := (10 : ℝ) ^ x

/-- `jnp.linspace(start, stop, n+2)`, as computed by JAX: `start*(1-s) + stop*s` with `s = i/(num-1)`
for all but the last entry, which is exactly `stop`.  (numpy computes `start + i*step`; the same reals.) -/
noncomputable def linspace (start stop : ℝ) (n : ℕ) : Fin (n + 2) → ℝ := fun i =>
  if i = Fin.last (n + 1) then stop
  else start * (1 - (i : ℝ) / ((n : ℝ) + 1)) + stop * ((i : ℝ) / ((n : ℝ) + 1))

/-- `jnp.logspace(start, stop, n+2)`: `10 ** linspace(start, stop, n+2)`. -/
noncomputable def logspace (start stop : ℝ) (n : ℕ) : Fin (n + 2) → ℝ := fun i =>
  exp10 (linspace start stop n i)

/-- The floating point type in use.  The only place where dsps' arithmetic depends on it (other than rounding,
which is not modelled) is the guard `np.spacing(np.finfo(dtype).eps)` in `jnp.interp`; theorems hold for every
choice of this number. -/
class Dtype where
  interpEps : ℝ
  interpEps_nonneg : 0 ≤ interpEps

/-- float64: eps = 2^-52, spacing(eps) = 2^-104 -/
@[instance_reducible] noncomputable def Dtype.float64 : Dtype := ⟨(2 : ℝ)⁻¹ ^ 104, by positivity⟩
/-- float32: eps = 2^-23, spacing(eps) = 2^-46 -/
@[instance_reducible] noncomputable def Dtype.float32 : Dtype := ⟨(2 : ℝ)⁻¹ ^ 46, by positivity⟩

/-- `jnp.searchsorted(xp, x, side="right")` on a sorted array: the number of entries `≤ x`.
(JAX runs a binary search, which returns this count when `xp` is sorted; on unsorted input the returned index is
unspecified and is not modelled.  `Verif/Lemmas/SearchSorted.lean` proves the binary search equals the count.) -/
noncomputable def searchsortedRight (xp : Fin n → ℝ) (x : ℝ) : ℕ :=
  open Classical in (Finset.univ.filter fun j => xp j ≤ x).card

/-- The index `i` of `jnp.interp`: `clip(searchsorted(xp, x, side='right'), 1, len(xp) - 1)`, decremented by one,
i.e. the index of the left end of the interpolation cell (`len(xp) = n+2`). -/
noncomputable def interpCell (xp : Fin (n + 2) → ℝ) (x : ℝ) : Fin (n + 1) :=
  ⟨min (max (searchsortedRight xp x) 1) (n + 1) - 1, by omega⟩

/-- The value of `jnp.interp` before the left/right fills: linear interpolation (or extrapolation)
in the cell found by `searchsorted`, with JAX's guard against zero-length cells. -/
noncomputable def interpBody [Dtype] (x : ℝ) (xp fp : Fin (n + 2) → ℝ) : ℝ :=
  let i := interpCell xp x
  let df := fp i.succ - fp i.castSucc
  let dx := xp i.succ - xp i.castSucc
  let delta := x - xp i.castSucc
  if |dx| ≤ Dtype.interpEps then fp i.castSucc else fp i.castSucc + (delta / dx) * df

/-- `jnp.interp(x, xp, fp, left=left, right=right)` for tables of at least two points
(`jax/_src/numpy/lax_numpy.py: _interp`, no `period`). -/
noncomputable def interpLR [Dtype] (x : ℝ) (xp fp : Fin (n + 2) → ℝ) (left right : ℝ) : ℝ :=
  if x > last xp then right else if x < xp 0 then left else interpBody x xp fp

/-- `jnp.interp(x, xp, fp)`: the fills default to the end values. -/
noncomputable def interp [Dtype] (x : ℝ) (xp fp : Fin (n + 2) → ℝ) : ℝ :=
  interpLR x xp fp (fp 0) (last fp)

end Jnp
