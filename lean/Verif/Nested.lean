/-
Derivatives of any order: nested differentiation.

`jax.grad(jax.grad(f))`, `jax.hessian(f) = jax.jacfwd(jax.jacrev(f))` and so on run the program on numbers that are recorded several
times over: the inner derivative is itself computed with recorded numbers of the outer one.  A nesting is a list of modes, the mode applied
first (the innermost call of jax.grad or jax.jvp) at the head.

* `RvO α ι` (`Verif/Range.lean`): a number recorded for reverse mode over the number type `α`; its gradient is again in `α`.
* `Fw α ι`: a number with its tangents over the number type `α`.

The rules are JAX's derivative rules of the primitives, the same as in `Verif/Rev.lean`.
-/
import Verif.Rev
import Verif.Range

/-- A number with its tangent for every direction in which the parameters may move, over the number type `α`. -/
structure Fw (α ι : Type) where
  v : α
  tan : (ι → ℝ) → α

namespace Fw
variable {α ι : Type} [Flt α]
open Flt

/-- the parameter number `k` -/
noncomputable def var (k : ι) (x : α) : Fw α ι := ⟨x, fun e => lit (e k)⟩

open Classical in
/-- The forward derivative rules of JAX, evaluated in `α`. -/
noncomputable instance : Flt (Fw α ι) where
  value x := value x.v
  lit x := ⟨lit x, fun _ => lit 0⟩
  add a b := ⟨a.v + b.v, fun e => a.tan e + b.tan e⟩
  sub a b := ⟨a.v - b.v, fun e => a.tan e + -b.tan e⟩
  neg a := ⟨-a.v, fun e => -a.tan e⟩
  mul a b := ⟨a.v * b.v, fun e => a.tan e * b.v + b.tan e * a.v⟩
  div a b := ⟨a.v / b.v, fun e => a.tan e / b.v + -b.tan e * a.v * (lit 1 / (b.v * b.v))⟩
  sel c a b := ⟨sel c a.v b.v, fun e => sel c (a.tan e) (b.tan e)⟩
  ipow a n := ⟨ipow a.v n, fun e => a.tan e * (lit n * ipow a.v (n - 1))⟩
  exp a := ⟨exp a.v, fun e => a.tan e * exp a.v⟩
  log a := ⟨log a.v, fun e => a.tan e / a.v⟩
  log10 a := ⟨log10 a.v, fun e => a.tan e / a.v / lit (Real.log 10)⟩
  exp10 a := ⟨exp10 a.v, fun e => a.tan e * (lit (Real.log 10) * exp10 a.v)⟩
  sqrt a := ⟨sqrt a.v, fun e => a.tan e * (lit 0.5 / sqrt a.v)⟩
  logistic a :=
    let ans := logistic a.v
    ⟨ans, fun e => a.tan e * (ans * (lit 1 - ans))⟩
  pow a b :=
    let ans := pow a.v b.v
    ⟨ans, fun e => a.tan e * (b.v * pow a.v (b.v - lit 1)) + b.tan e * (log a.v * ans)⟩
  take xs k := ⟨take (fun j => (xs j).v) k, fun e => take (fun j => (xs j).tan e) k⟩
  sum xs := ⟨Flt.sum fun j => (xs j).v, fun e => Flt.sum fun j => (xs j).tan e⟩

end Fw

/-- reverse mode (`jax.grad`, `jax.jacrev`) or forward mode (`jax.jvp`, `jax.jacfwd`) -/
inductive Mode
  | rev
  | fwd

/-- Numbers under nested differentiation, the mode applied first at the head. -/
def Nest (ι : Type) : List Mode → Type
  | [] => XF
  | .rev :: ms => RvO (Nest ι ms) ι
  | .fwd :: ms => Fw (Nest ι ms) ι

namespace Nest
variable {ι : Type}

noncomputable instance flt : (ms : List Mode) → Flt (Nest ι ms)
  | [] => inferInstanceAs (Flt XF)
  | .rev :: ms => letI := flt ms; inferInstanceAs (Flt (RvO (Nest ι ms) ι))
  | .fwd :: ms => letI := flt ms; inferInstanceAs (Flt (Fw (Nest ι ms) ι))

/-- the parameter number `k`, differentiated at all levels -/
noncomputable def var [DecidableEq ι] (k : ι) (x : ℝ) : (ms : List Mode) → Nest ι ms
  | [] => XF.fin x
  | .rev :: ms => RvO.var k (var k x ms)
  | .fwd :: ms => Fw.var k (var k x ms)

open Topology Filter in
/-- **Specification.**  The number `x`, recorded at the parameters `θ`, has the value of `f`, and every derivative that the nested calls of
`jax.grad` and `jax.jvp` return is finite and is the derivative it claims to be: a gradient entry (a tangent) is, as a number recorded by the
remaining levels, the partial derivative (the derivative in the direction) of `f`, which exists near `θ`, and so on to the last level. -/
def DerivsOk [DecidableEq ι] [Fintype ι] : (ms : List Mode) → Nest ι ms → ((ι → ℝ) → ℝ) → (ι → ℝ) → Prop
  | [], x, f, θ => XF.Rep x (f θ)
  | .rev :: ms, x, f, θ => DerivsOk ms x.v f θ ∧ ∀ i, ∃ f' : (ι → ℝ) → ℝ,
      (∀ᶠ y in 𝓝 θ, HasDerivAt (fun t => f (Function.update y i t)) (f' y) (y i)) ∧ DerivsOk ms (x.grad i) f' θ
  | .fwd :: ms, x, f, θ => DerivsOk ms x.v f θ ∧ ∀ dir, ∃ f' : (ι → ℝ) → ℝ,
      (∀ᶠ y in 𝓝 θ, HasDerivAt (fun t => f (y + t • dir)) (f' y) (0:ℝ)) ∧ DerivsOk ms (x.tan dir) f' θ

end Nest
