/-
Programs over an abstract float type.

`Flt α` collects the primitive operations of jax.numpy / lax used by the differentiable parts of dsps.  The same program
text (`Verif/Model/Gen.lean`) is then run on
* plain floats (`XF`, numbers with nan and infinities, `Verif/XF.lean`), and
* floats recorded for reverse-mode differentiation (`Rev.Rv`, `Verif/Rev.lean`), i.e. under `jax.grad`.
-/
import Verif.Model.XFPhot

/-- The primitive operations.  Comparisons look at the float value only (they carry no gradient). -/
class Flt (α : Type) extends Add α, Sub α, Mul α, Div α, Neg α where
  /-- the float -/
  value : α → XF
  /-- a literal, or an array entry that is not differentiated -/
  lit : ℝ → α
  /-- `jnp.where(c, a, b)` -/
  sel : Prop → α → α → α
  /-- `a ** n` for a literal positive integer `n` (`lax.integer_pow`) -/
  ipow : α → ℕ → α
  exp : α → α
  log : α → α
  log10 : α → α
  /-- `10 ** a` -/
  exp10 : α → α
  sqrt : α → α
  /-- `jax.nn.sigmoid` -/
  logistic : α → α
  /-- `a ** b` with floats `a > 0` and `b` (`lax.pow`) -/
  pow : α → α → α
  /-- `xs[k]` with an index computed at run time -/
  take : {n : ℕ} → (Fin n → α) → Fin n → α
  /-- `jnp.sum` -/
  sum : {n : ℕ} → (Fin n → α) → α

open Classical in
/-- Plain floats. -/
noncomputable instance : Flt XF where
  value := id
  lit := XF.fin
  sel c a b := if c then a else b
  ipow := XF.npow
  exp := XF.exp
  log := XF.log
  log10 := XF.log10
  exp10 := XF.exp10
  sqrt := Dsps.XFPhot.sqrt
  logistic x := 1 / (1 + XF.exp (-x))
  pow := Dsps.XFUtils.pow
  take xs k := xs k
  sum := XF.sum
