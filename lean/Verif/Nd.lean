import Verif.Jnp
import Verif.Py

/-!
numpy / jax.numpy arrays with *dynamic* shapes: the rules by which an array program accepts, broadcasts or rejects its
arguments.  The other layers of the development give every array its documented shape as a type; here the shape is
data, as it is in Python, so that one can ask what happens when a caller passes another one.

An array is a shape (list of dimensions, outermost first; `[]` is a scalar) and a function from multi-indices; only
indices within the shape are meaningful.  Values are exact reals.  Operations raise as in JAX; which exception class is
raised is not meant to be relied on.
-/
namespace Nd
open Py

/-- `ndarray` -/
structure Arr (α : Type) where
  /-- `a.shape` -/
  shape : List ℕ
  /-- `a[idx]` -/
  dat : List ℕ → α

/-- What JAX does outside the cases its documentation settles: a static integer index past the end of an axis, and
`jnp.interp` on tables of fewer than two points.  Theorems hold for every such behaviour. -/
class Edge where
  /-- the array returned (or exception raised) for an out-of-range index on an axis -/
  oob : List ℕ → Except PyErr (List ℕ → ℝ)
  /-- interpolation in a table of fewer than two points -/
  interpShort : ℕ → Except PyErr (ℝ → ℝ)

variable {α β γ δ : Type}

/-- a Python or numpy scalar used as an array -/
def scal (x : α) : Arr α := ⟨[], fun _ => x⟩

/-- `a.size` -/
def size (a : Arr α) : ℕ := a.shape.prod

/-- an elementwise function -/
def map (f : α → β) (a : Arr α) : Arr β := ⟨a.shape, fun i => f (a.dat i)⟩

/-- numpy's broadcasting of two shapes, innermost dimension first -/
def bcRev : List ℕ → List ℕ → Except PyErr (List ℕ)
  | [], b => .ok b
  | x :: a, [] => .ok (x :: a)
  | x :: a, y :: b =>
    if x = y ∨ y = 1 then (bcRev a b).map (x :: ·)
    else if x = 1 then (bcRev a b).map (y :: ·)
    else .error .typeError

/-- numpy's broadcasting of two shapes -/
def bcShape (a b : List ℕ) : Except PyErr (List ℕ) := (bcRev a.reverse b.reverse).map List.reverse

/-- the element of an array of shape `s` that a broadcast result reads at index `idx`: missing leading axes are dropped,
axes of length one are read at zero -/
def bcIdx (s idx : List ℕ) : List ℕ :=
  (s.zip (idx.drop (idx.length - s.length))).map fun p => if p.1 = 1 then 0 else p.2

/-- a binary elementwise operation -/
def map2 (f : α → β → γ) (a : Arr α) (b : Arr β) : Except PyErr (Arr γ) :=
  match bcShape a.shape b.shape with
  | .ok s => .ok ⟨s, fun i => f (a.dat (bcIdx a.shape i)) (b.dat (bcIdx b.shape i))⟩
  | .error e => .error e

/-- `jnp.broadcast_to(a, s)` -/
def broadcastTo (a : Arr α) (s : List ℕ) : Except PyErr (Arr α) :=
  match bcShape a.shape s with
  | .ok s' => if s' = s then .ok ⟨s, fun i => a.dat (bcIdx a.shape i)⟩ else .error .valueError
  | .error _ => .error .valueError

open Classical in
/-- `jnp.where(c, a, b)` -/
noncomputable def where_ (c : Arr Prop) (a b : Arr ℝ) : Except PyErr (Arr ℝ) := do
  let ab ← map2 Prod.mk a b
  map2 (fun c p => if c then p.1 else p.2) c ab

/-- position of a multi-index in row-major order -/
def ravel : List ℕ → List ℕ → ℕ
  | _ :: s, i :: idx => i * s.prod + ravel s idx
  | _, _ => 0

/-- multi-index of a position in row-major order -/
def unravel : List ℕ → ℕ → List ℕ
  | [], _ => []
  | _ :: s, k => (k / s.prod) :: unravel s (k % s.prod)

/-- `a.reshape(t)`, `none` standing for `-1` -/
def reshape (a : Arr α) (t : List (Option ℕ)) : Except PyErr (Arr α) :=
  let known := (t.filterMap id).prod
  let go (s : List ℕ) : Except PyErr (Arr α) :=
    if s.prod = size a then .ok ⟨s, fun i => a.dat (unravel a.shape (ravel s i))⟩ else .error .typeError
  match t.count none with
  | 0 => go (t.map (·.getD 0))
  | 1 => if known = 0 then .error .typeError else go (t.map (·.getD (size a / known)))
  | _ => .error .valueError

/-- sum over all multi-indices of a shape -/
noncomputable def sumShape : List ℕ → (List ℕ → ℝ) → ℝ
  | [], f => f []
  | d :: s, f => ∑ i ∈ Finset.range d, sumShape s fun idx => f (i :: idx)

/-- `a.sum()` -/
noncomputable def sumAll (a : Arr ℝ) : Arr ℝ := scal (sumShape a.shape a.dat)

/-- `jnp.sum(a, axis=0)` -/
noncomputable def sum0 (a : Arr ℝ) : Except PyErr (Arr ℝ) :=
  match a.shape with
  | d :: s => .ok ⟨s, fun idx => ∑ i ∈ Finset.range d, a.dat (i :: idx)⟩
  | _ => .error .valueError

/-- `jnp.sum(a, axis=(0, 1))` -/
noncomputable def sum01 (a : Arr ℝ) : Except PyErr (Arr ℝ) :=
  match a.shape with
  | d :: e :: s =>
    .ok ⟨s, fun idx => ∑ i ∈ Finset.range d, ∑ j ∈ Finset.range e, a.dat (i :: j :: idx)⟩
  | _ => .error .valueError

/-- `jnp.all(a, axis=0)` -/
def all0 (a : Arr Prop) : Except PyErr (Arr Prop) :=
  match a.shape with
  | d :: s => .ok ⟨s, fun idx => ∀ i, i < d → a.dat (i :: idx)⟩
  | _ => .error .valueError

/-- `jnp.zeros(n)` -/
def zeros1 (n : ℕ) : Arr ℝ := ⟨[n], fun _ => 0⟩

/-- `jnp.zeros_like(a)` -/
def zerosLike (a : Arr ℝ) : Arr ℝ := ⟨a.shape, fun _ => 0⟩

/-- `a[:-1]` -/
def sliceInit (a : Arr α) : Except PyErr (Arr α) :=
  match a.shape with
  | d :: s => .ok ⟨(d - 1) :: s, a.dat⟩
  | _ => .error .indexError

/-- `a[1:]` -/
def sliceTail (a : Arr α) : Except PyErr (Arr α) :=
  match a.shape with
  | d :: s => .ok ⟨(d - 1) :: s, fun idx => match idx with | i :: r => a.dat ((i + 1) :: r) | [] => a.dat []⟩
  | _ => .error .indexError

/-- `a[i]` -/
def idx [Edge] (a : Arr ℝ) (i : ℕ) : Except PyErr (Arr ℝ) :=
  match a.shape with
  | d :: s => if i < d then .ok ⟨s, fun r => a.dat (i :: r)⟩ else (Edge.oob a.shape).map fun f => ⟨s, f⟩
  | _ => .error .indexError

/-- `a[-1]` -/
def idxLast [Edge] (a : Arr ℝ) : Except PyErr (Arr ℝ) :=
  match a.shape with
  | d :: s => if 0 < d then .ok ⟨s, fun r => a.dat ((d - 1) :: r)⟩ else (Edge.oob a.shape).map fun f => ⟨s, f⟩
  | _ => .error .indexError

/-- `a.at[lo:lo+len].set(v)` with `lo + len` at most the length of the axis: the value is broadcast to the slice -/
def setSlice (a : Arr ℝ) (lo len : ℕ) (v : Arr ℝ) : Except PyErr (Arr ℝ) :=
  match a.shape with
  | _ :: s =>
    match broadcastTo v (len :: s) with
    | .ok v => .ok ⟨a.shape, fun idx => match idx with
        | i :: r => if lo ≤ i ∧ i < lo + len then v.dat ((i - lo) :: r) else a.dat idx
        | [] => a.dat []⟩
    | .error e => .error e
  | _ => .error .indexError

/-- `a.at[:-1].set(v)` -/
def setInit (a v : Arr ℝ) : Except PyErr (Arr ℝ) := setSlice a 0 (a.shape.headD 0 - 1) v

/-- `a.at[1:].set(v)` -/
def setTail (a v : Arr ℝ) : Except PyErr (Arr ℝ) := setSlice a 1 (a.shape.headD 0 - 1) v

/-- `a.at[1:-1].set(v)` -/
def setInterior (a v : Arr ℝ) : Except PyErr (Arr ℝ) := setSlice a 1 (a.shape.headD 0 - 2) v

/-- `a.at[0].set(v)`; JAX drops an out-of-range update -/
def setFirst (a v : Arr ℝ) : Except PyErr (Arr ℝ) :=
  match a.shape with
  | _ :: s =>
    match broadcastTo v s with
    | .ok v => .ok ⟨a.shape, fun idx => match idx with
        | i :: r => if i = 0 then v.dat r else a.dat idx
        | [] => a.dat []⟩
    | .error e => .error e
  | _ => .error .indexError

/-- `a.at[-1].set(v)`; JAX drops an out-of-range update -/
def setLast (a v : Arr ℝ) : Except PyErr (Arr ℝ) :=
  match a.shape with
  | d :: s =>
    match broadcastTo v s with
    | .ok v => .ok ⟨a.shape, fun idx => match idx with
        | i :: r => if i + 1 = d then v.dat r else a.dat idx
        | [] => a.dat []⟩
    | .error e => .error e
  | _ => .error .indexError

/-- shape with the last dimension changed -/
def mapLast (f : ℕ → ℕ) (s : List ℕ) : List ℕ := s.dropLast ++ [f (s.getLastD 0)]

/-- `a[..., :-1]` -/
def lastInit (a : Arr α) : Except PyErr (Arr α) :=
  if a.shape = [] then .error .indexError else .ok ⟨mapLast (· - 1) a.shape, a.dat⟩

/-- `a[..., 1:]` -/
def lastTail (a : Arr α) : Except PyErr (Arr α) :=
  if a.shape = [] then .error .indexError
  else .ok ⟨mapLast (· - 1) a.shape, fun idx => a.dat (mapLast (· + 1) idx)⟩

/-- `jnp.diff(a)` (along the last axis) -/
def diff (a : Arr ℝ) : Except PyErr (Arr ℝ) :=
  if a.shape = [] then .error .valueError
  else .ok ⟨mapLast (· - 1) a.shape, fun idx => a.dat (mapLast (· + 1) idx) - a.dat idx⟩

/-- `a.sum(-1)` -/
noncomputable def sumLast (a : Arr ℝ) : Except PyErr (Arr ℝ) :=
  if a.shape = [] then .error .valueError
  else .ok ⟨a.shape.dropLast, fun idx => ∑ i ∈ Finset.range (a.shape.getLastD 0), a.dat (idx ++ [i])⟩

/-- `jnp.trapezoid(y, x)` (along the last axis of both):
`0.5 * (diff(x) * (y[..., 1:] + y[..., :-1])).sum(-1)` -/
noncomputable def trapezoid (y x : Arr ℝ) : Except PyErr (Arr ℝ) := do
  let dx ← diff x
  let hi ← lastTail y
  let lo ← lastInit y
  let s ← map2 (· + ·) hi lo
  let p ← map2 (· * ·) dx s
  let r ← sumLast p
  return map (0.5 * ·) r

/-- `jnp.swapaxes(a, 1, 0)` -/
def swap01 (a : Arr α) : Except PyErr (Arr α) :=
  match a.shape with
  | d :: e :: s => .ok ⟨e :: d :: s, fun idx => match idx with | i :: j :: r => a.dat (j :: i :: r) | r => a.dat r⟩
  | _ => .error .valueError

/-- the vector `a[0], …, a[n-1]` of a one-dimensional array -/
def vec (a : Arr α) (n : ℕ) : Fin n → α := fun i => a.dat [i.1]

/-- `jnp.interp(x, xp, fp)`: `x` of any shape, the tables one-dimensional and of equal length -/
noncomputable def interp [Jnp.Dtype] [Edge] (x xp fp : Arr ℝ) : Except PyErr (Arr ℝ) :=
  if xp.shape = fp.shape then
    match xp.shape with
    | [n + 2] => .ok (map (fun x => Jnp.interp x (vec xp (n + 2)) (vec fp (n + 2))) x)
    | [n] => (Edge.interpShort n).map fun f => map f x
    | _ => .error .valueError
  else .error .valueError

/-- `jnp.interp(x, xp, fp, left=left, right=right)` -/
noncomputable def interpLR [Jnp.Dtype] [Edge] (x xp fp : Arr ℝ) (left right : ℝ) : Except PyErr (Arr ℝ) :=
  if xp.shape = fp.shape then
    match xp.shape with
    | [n + 2] => .ok (map (fun x => Jnp.interpLR x (vec xp (n + 2)) (vec fp (n + 2)) left right) x)
    | [n] => (Edge.interpShort n).map fun f => map f x
    | _ => .error .valueError
  else .error .valueError

/-- `jnp.linspace(start, stop, n + 2)` for a scalar `start`: the new axis comes first -/
noncomputable def linspace (start : ℝ) (stop : Arr ℝ) (n : ℕ) : Arr ℝ :=
  ⟨(n + 2) :: stop.shape, fun idx => match idx with
    | i :: r => if h : i < n + 2 then Jnp.linspace start (stop.dat r) n ⟨i, h⟩ else 0
    | [] => 0⟩

/-- `jnp.atleast_1d(a)` -/
def atleast1d (a : Arr α) : Arr α :=
  match a.shape with
  | [] => ⟨[1], fun _ => a.dat []⟩
  | _ => a

/-- `a[i]` of a mapped axis -/
def row (a : Arr α) (s : List ℕ) (i : ℕ) : Arr α := ⟨s, fun r => a.dat (i :: r)⟩

/-- `jax.vmap(f)(a)` for a function of one mapped argument (the others closed over).  `f` is traced once to find the
shape of the result; mapping over a scalar raises. -/
def vmap (f : Arr α → Except PyErr (Arr β)) (a : Arr α) : Except PyErr (Arr β) :=
  match a.shape with
  | d :: s =>
    match f (row a s 0) with
    | .ok r0 => .ok ⟨d :: r0.shape, fun idx => match idx with
        | i :: t => (match f (row a s i) with | .ok r => r.dat t | .error _ => r0.dat t)
        | [] => r0.dat []⟩
    | .error e => .error e
  | _ => .error .valueError

/-- `jax.vmap(f)(a, b)` for two mapped arguments: their leading dimensions must agree -/
def vmapTwo (f : Arr α → Arr β → Except PyErr (Arr γ)) (a : Arr α) (b : Arr β) : Except PyErr (Arr γ) :=
  match a.shape, b.shape with
  | d :: s, e :: t =>
    if d = e then
      match f (row a s 0) (row b t 0) with
      | .ok r0 => .ok ⟨d :: r0.shape, fun idx => match idx with
          | i :: u => (match f (row a s i) (row b t i) with | .ok r => r.dat u | .error _ => r0.dat u)
          | [] => r0.dat []⟩
      | .error e => .error e
    else .error .valueError
  | _, _ => .error .valueError

/-! ### Reading results: the specification vocabulary of the shape theorems -/

/-- `a` is a scalar with value `x` -/
def Is0 (a : Arr α) (x : α) : Prop := a.shape = [] ∧ a.dat [] = x

/-- `a` is one-dimensional with entries `f` -/
def Is1 (a : Arr α) {n : ℕ} (f : Fin n → α) : Prop := a.shape = [n] ∧ ∀ i : Fin n, a.dat [i.1] = f i

/-- `a` is two-dimensional with entries `f` -/
def Is2 (a : Arr α) {n m : ℕ} (f : Fin n → Fin m → α) : Prop :=
  a.shape = [n, m] ∧ ∀ (i : Fin n) (j : Fin m), a.dat [i.1, j.1] = f i j

/-- `a` is three-dimensional with entries `f` -/
def Is3 (a : Arr α) {n m p : ℕ} (f : Fin n → Fin m → Fin p → α) : Prop :=
  a.shape = [n, m, p] ∧ ∀ (i : Fin n) (j : Fin m) (l : Fin p), a.dat [i.1, j.1, l.1] = f i j l

/-- `a` is four-dimensional with entries `f` -/
def Is4 (a : Arr α) {n m p q : ℕ} (f : Fin n → Fin m → Fin p → Fin q → α) : Prop :=
  a.shape = [n, m, p, q] ∧ ∀ (i : Fin n) (j : Fin m) (l : Fin p) (r : Fin q), a.dat [i.1, j.1, l.1, r.1] = f i j l r

/-- the call raises an exception -/
def Raises (r : Except PyErr β) : Prop := ∃ e, r = .error e

/-- the call returns an array of shape `s` -/
def HasShape (r : Except PyErr (Arr α)) (s : List ℕ) : Prop := ∃ a, r = .ok a ∧ a.shape = s

end Nd
