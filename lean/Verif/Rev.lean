/-
Reverse-mode differentiation (`jax.grad`, `jax.vjp`) and forward-mode differentiation (`jax.jvp`, `jax.jacfwd`).

A recorded float is its value together with
* its back-propagator: the map that turns the cotangent of this number into its contribution to the gradient with respect to
  the parameters (indexed by `ι`).  The rules below are the transposed derivative rules of the JAX primitives;
* its tangent, for every direction in which the parameters may move: the derivative rules of the JAX primitives.
Both are evaluated in float arithmetic (`XF`), so that products such as `0 * inf = nan` in branches of `jnp.where` that are not
taken are seen.  The two modes do not influence each other or the value; they are recorded together only so that one proof
serves for both.

In forward mode JAX leaves out the terms of constant operands (symbolic zeros); here a constant has the tangent 0, and its
terms are added.  The results agree unless such a 0 is multiplied by an infinity or nan; as the theorems establish finite
tangents in spite of this, they hold for JAX's symbolic zeros as well.

Not modelled: JAX adds the cotangents of a number that is used several times before it propagates them further, here they
are propagated one by one; the two agree as long as no nan or inf occurs in the back-propagation, which is what the theorems
establish.
-/
import Verif.Flt
import Mathlib.Analysis.Calculus.FDeriv.Mul
import Mathlib.Analysis.Calculus.FDeriv.Pow
import Mathlib.Analysis.Calculus.FDeriv.Pi
import Mathlib.Analysis.Calculus.Deriv.Inv
import Mathlib.Analysis.SpecialFunctions.Pow.Deriv
import Mathlib.Analysis.SpecialFunctions.Log.Deriv
import Mathlib.Analysis.SpecialFunctions.ExpDeriv
import Mathlib.Analysis.SpecialFunctions.Sqrt

namespace Rev
open XF

/-- A float recorded for differentiation. -/
structure Rv (ι : Type) where
  v : XF
  back : XF → ι → XF
  /-- the tangent, when the parameters move in a given direction -/
  tan : (ι → ℝ) → XF

variable {ι : Type}

/-- the parameter number `k`, with the value `x` -/
noncomputable def Rv.var [DecidableEq ι] (k : ι) (x : XF) : Rv ι := ⟨x, fun ct i => if i = k then ct else 0, fun dir => fin (dir k)⟩

/-- `jax.grad`: back-propagation of the cotangent 1 -/
noncomputable def Rv.grad (x : Rv ι) : ι → XF := x.back 1

/-- `jax.jvp`: the derivative in the direction `dir` -/
noncomputable def Rv.jvp (x : Rv ι) (dir : ι → ℝ) : XF := x.tan dir

open Classical in
/-- The derivative rules of JAX (`jax/_src/lax/lax.py`). -/
noncomputable instance : Flt (Rv ι) where
  value x := x.v
  lit x := ⟨fin x, fun _ _ => 0, fun _ => 0⟩
  add a b := ⟨a.v + b.v, fun ct i => a.back ct i + b.back ct i, fun e => a.tan e + b.tan e⟩
  sub a b := ⟨a.v - b.v, fun ct i => a.back ct i + b.back (-ct) i, fun e => a.tan e + -b.tan e⟩
  neg a := ⟨-a.v, fun ct i => a.back (-ct) i, fun e => -a.tan e⟩
  mul a b := ⟨a.v * b.v, fun ct i => a.back (ct * b.v) i + b.back (ct * a.v) i, fun e => a.tan e * b.v + b.tan e * a.v⟩
  div a b := ⟨a.v / b.v, fun ct i => a.back (ct / b.v) i + b.back (-ct * a.v * (1 / (b.v * b.v))) i,
    fun e => a.tan e / b.v + -b.tan e * a.v * (1 / (b.v * b.v))⟩
  sel c a b := ⟨if c then a.v else b.v, fun ct i => a.back (if c then ct else 0) i + b.back (if c then 0 else ct) i,
    fun e => if c then a.tan e else b.tan e⟩
  ipow a n := ⟨XF.npow a.v n, fun ct i => a.back (ct * (fin n * XF.npow a.v (n - 1))) i, fun e => a.tan e * (fin n * XF.npow a.v (n - 1))⟩
  exp a := ⟨XF.exp a.v, fun ct i => a.back (ct * XF.exp a.v) i, fun e => a.tan e * XF.exp a.v⟩
  log a := ⟨XF.log a.v, fun ct i => a.back (ct / a.v) i, fun e => a.tan e / a.v⟩
  log10 a := ⟨XF.log10 a.v, fun ct i => a.back (ct / fin (Real.log 10) / a.v) i, fun e => a.tan e / a.v / fin (Real.log 10)⟩
  exp10 a := ⟨XF.exp10 a.v, fun ct i => a.back (ct * (fin (Real.log 10) * XF.exp10 a.v)) i, fun e => a.tan e * (fin (Real.log 10) * XF.exp10 a.v)⟩
  sqrt a := ⟨Dsps.XFPhot.sqrt a.v, fun ct i => a.back (ct * (fin 0.5 / Dsps.XFPhot.sqrt a.v)) i, fun e => a.tan e * (fin 0.5 / Dsps.XFPhot.sqrt a.v)⟩
  logistic a :=
    let ans := 1 / (1 + XF.exp (-a.v))
    ⟨ans, fun ct i => a.back (ct * (ans * (1 - ans))) i, fun e => a.tan e * (ans * (1 - ans))⟩
  pow a b :=
    let ans := Dsps.XFUtils.pow a.v b.v
    ⟨ans, fun ct i => a.back (ct * (b.v * Dsps.XFUtils.pow a.v (b.v - 1))) i + b.back (ct * (XF.log a.v * ans)) i,
      fun e => a.tan e * (b.v * Dsps.XFUtils.pow a.v (b.v - 1)) + b.tan e * (XF.log a.v * ans)⟩
  take xs k := ⟨(xs k).v, fun ct i => XF.sum fun j => (xs j).back (if j = k then ct else 0) i, fun e => (xs k).tan e⟩
  sum xs := ⟨XF.sum fun j => (xs j).v, fun ct i => XF.sum fun j => (xs j).back ct i, fun e => XF.sum fun j => (xs j).tan e⟩

/-! ### Specification -/

/-- the linear functional with coefficients `g` -/
noncomputable def lin [Fintype ι] (g : ι → ℝ) : (ι → ℝ) →L[ℝ] ℝ := ∑ i, g i • ContinuousLinearMap.proj (R := ℝ) i

/-- **Specification.**  The recorded float `x` has the finite value `f θ`, its back-propagator returns finite floats `c * g i`
for every finite cotangent `c`, its tangent in every direction is the finite float `∑ i, g i * dir i`, and, provided `s` holds,
the `g i` are the partial derivatives of `f` at `θ`. -/
def Traced [Fintype ι] (s : Prop) (x : Rv ι) (f : (ι → ℝ) → ℝ) (θ : ι → ℝ) : Prop :=
  ∃ g : ι → ℝ, Rep x.v (f θ) ∧ (∀ ct c, Rep ct c → ∀ i, Rep (x.back ct i) (c * g i)) ∧ (∀ dir, Rep (x.tan dir) (∑ i, g i * dir i)) ∧
    (s → HasFDerivAt f (lin g) θ)

/-- **Specification.**  The value and the gradient returned by `jax.value_and_grad` are finite, and, provided `s` holds, the
gradient consists of the partial derivatives of `f` at `θ`; and so for `jax.jvp`: the derivative it returns in any direction is
finite, and, provided `s` holds, the derivative of `f` in this direction. -/
def GradOk [Fintype ι] [DecidableEq ι] (s : Prop) (x : Rv ι) (f : (ι → ℝ) → ℝ) (θ : ι → ℝ) : Prop :=
  Rep x.v (f θ) ∧ (∀ i, ∃ d, Rep (x.grad i) d ∧ (s → HasDerivAt (fun t => f (Function.update θ i t)) d (θ i))) ∧
    ∀ dir, ∃ d, Rep (x.jvp dir) d ∧ (s → HasDerivAt (fun t => f (θ + t • dir)) d (0:ℝ))

/-- **Specification.**  The quantity `f` does not depend on the parameters, near `θ` (a constant input, for instance). -/
def Fixed {β : Type} (f : (ι → ℝ) → β) (θ : ι → ℝ) : Prop := ∀ᶠ y in nhds θ, f y = f θ

end Rev
