/-
Floats with a finite exponent range.

`Verif/XF.lean` has infinities and nan but no overflow or underflow.  Here every result is forced into the range of a format: larger
magnitudes become infinite, magnitudes below the smallest normal number become zero (XLA runs CPU kernels with denormals flushed to zero).
Results inside the range are still not rounded.

`RvO` is reverse-mode differentiation (as in `Verif/Rev.lean`) in which also the back-propagation is done in such a float type.
-/
import Verif.Flt

/-- The range of a floating-point format. -/
structure Range where
  /-- the smallest positive normal number -/
  tiny : ℝ
  /-- the largest finite number -/
  max : ℝ
  tiny_pos : 0 < tiny
  tiny_le : tiny ≤ 1
  max_ge : 1 ≤ max

namespace Range

/-- IEEE binary64 -/
noncomputable def float64 : Range := ⟨2⁻¹ ^ 1022, (2 - 2⁻¹ ^ 52) * 2 ^ 1023, by positivity, pow_le_one₀ (by norm_num) (by norm_num),
  one_le_mul_of_one_le_of_one_le (by norm_num) (one_le_pow₀ (by norm_num))⟩
/-- IEEE binary32 -/
noncomputable def float32 : Range := ⟨2⁻¹ ^ 126, (2 - 2⁻¹ ^ 23) * 2 ^ 127, by positivity, pow_le_one₀ (by norm_num) (by norm_num),
  one_le_mul_of_one_le_of_one_le (by norm_num) (one_le_pow₀ (by norm_num))⟩

variable (R : Range)

open Classical in
/-- force a number into the range -/
noncomputable def fit : XF → XF
  | .fin x => if R.max < |x| then .inf (decide (x < 0)) else if |x| < R.tiny then XF.zeroOf (decide (x < 0)) else .fin x
  | a => a

/-- the number `x` lies in the range -/
def In (x : ℝ) : Prop := R.tiny ≤ |x| ∧ |x| ≤ R.max

theorem fit_in {x : ℝ} (h : R.In x) : R.fit (.fin x) = .fin x := by
  simp only [fit]; rw [if_neg h.2.not_gt, if_neg h.1.not_gt]

end Range

/-- A float of a format with range `R`. -/
structure Ranged (R : Range) where
  x : XF

open Classical in
/-- The operations on floats with a range: as on `XF`, then forced into the range. -/
noncomputable instance (R : Range) : Flt (Ranged R) where
  value a := a.x
  lit c := ⟨R.fit (.fin c)⟩
  add a b := ⟨R.fit (a.x + b.x)⟩
  sub a b := ⟨R.fit (a.x - b.x)⟩
  neg a := ⟨-a.x⟩
  mul a b := ⟨R.fit (a.x * b.x)⟩
  div a b := ⟨R.fit (a.x / b.x)⟩
  sel c a b := if c then a else b
  ipow a n := Nat.rec (motive := fun _ => Ranged R) ⟨R.fit (.fin 1)⟩ (fun k r => if k = 0 then a else ⟨R.fit (r.x * a.x)⟩) n
  exp a := ⟨R.fit (XF.exp a.x)⟩
  log a := ⟨R.fit (XF.log a.x)⟩
  log10 a := ⟨R.fit (XF.log10 a.x)⟩
  exp10 a := ⟨R.fit (XF.exp10 a.x)⟩
  sqrt a := ⟨R.fit (Dsps.XFPhot.sqrt a.x)⟩
  logistic a := ⟨R.fit (1 / (1 + XF.exp (-a.x)))⟩
  pow a b := ⟨R.fit (Dsps.XFUtils.pow a.x b.x)⟩
  take xs k := xs k
  sum xs := (List.ofFn xs).foldl (fun s a => ⟨R.fit (s.x + a.x)⟩) ⟨.fin 0⟩

/-- A float recorded for reverse-mode differentiation, over the float type `α`. -/
structure RvO (α ι : Type) where
  v : α
  back : α → ι → α

namespace RvO
variable {α ι : Type} [Flt α]
open Flt

/-- the parameter number `k` -/
noncomputable def var [DecidableEq ι] (k : ι) (x : α) : RvO α ι := ⟨x, fun ct i => if i = k then ct else lit 0⟩

/-- an input that is not differentiated -/
noncomputable def const (x : α) : RvO α ι := ⟨x, fun _ _ => lit 0⟩

/-- `jax.grad` -/
noncomputable def grad (x : RvO α ι) : ι → α := x.back (lit 1)

open Classical in
/-- The derivative rules of JAX (the same as in `Verif/Rev.lean`), evaluated in `α`. -/
noncomputable instance : Flt (RvO α ι) where
  value x := value x.v
  lit x := ⟨lit x, fun _ _ => lit 0⟩
  add a b := ⟨a.v + b.v, fun ct i => a.back ct i + b.back ct i⟩
  sub a b := ⟨a.v - b.v, fun ct i => a.back ct i + b.back (-ct) i⟩
  neg a := ⟨-a.v, fun ct i => a.back (-ct) i⟩
  mul a b := ⟨a.v * b.v, fun ct i => a.back (ct * b.v) i + b.back (ct * a.v) i⟩
  div a b := ⟨a.v / b.v, fun ct i => a.back (ct / b.v) i + b.back (-ct * a.v * (lit 1 / (b.v * b.v))) i⟩
  sel c a b := ⟨sel c a.v b.v, fun ct i => a.back (sel c ct (lit 0)) i + b.back (sel c (lit 0) ct) i⟩
  ipow a n := ⟨ipow a.v n, fun ct i => a.back (ct * (lit n * ipow a.v (n - 1))) i⟩
  exp a := ⟨exp a.v, fun ct i => a.back (ct * exp a.v) i⟩
  log a := ⟨log a.v, fun ct i => a.back (ct / a.v) i⟩
  log10 a := ⟨log10 a.v, fun ct i => a.back (ct / lit (Real.log 10) / a.v) i⟩
  exp10 a := ⟨exp10 a.v, fun ct i => a.back (ct * (lit (Real.log 10) * exp10 a.v)) i⟩
  sqrt a := ⟨sqrt a.v, fun ct i => a.back (ct * (lit 0.5 / sqrt a.v)) i⟩
  logistic a :=
    let ans := logistic a.v
    ⟨ans, fun ct i => a.back (ct * (ans * (lit 1 - ans))) i⟩
  pow a b :=
    let ans := pow a.v b.v
    ⟨ans, fun ct i => a.back (ct * (b.v * pow a.v (b.v - lit 1))) i + b.back (ct * (log a.v * ans)) i⟩
  take xs k := ⟨take (fun j => (xs j).v) k, fun ct i => Flt.sum fun j => (xs j).back (if j = k then ct else lit 0) i⟩
  sum xs := ⟨Flt.sum fun j => (xs j).v, fun ct i => Flt.sum fun j => (xs j).back ct i⟩

end RvO
