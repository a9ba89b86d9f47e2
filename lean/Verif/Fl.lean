/-
Rounded arithmetic: the standard model of floating point ("every operation returns the exact result up to a relative
error `u`"), without overflow, underflow and special values (for the latter see `Verif/XF.lean`).

An operation is *set-valued*: `A.rnd x` is the set of numbers the machine may return when the exact result is `x`.  The
same program text then covers a deterministic rounding function (a singleton set), and compilers that evaluate some
operations more accurately (fused multiply-add, extended precision: the set contains all admissible results).
-/
import Mathlib.Data.Real.Basic
import Mathlib.Algebra.BigOperators.Fin
import Mathlib.Algebra.Order.Field.Basic

namespace Fl

/-- A machine arithmetic with unit roundoff `u`. -/
structure Arith where
  /-- the admissible machine results for an exact result `x` -/
  rnd : ℝ → Set ℝ
  u : ℝ
  u_nonneg : 0 ≤ u
  u_lt_one : u < 1
  rel : ∀ x, ∀ r ∈ rnd x, |r - x| ≤ u * |x|

/-- The most permissive arithmetic with unit roundoff `u`. -/
def Arith.any (u : ℝ) (h0 : 0 ≤ u) (h1 : u < 1) : Arith := ⟨fun x => {r | |r - x| ≤ u * |x|}, u, h0, h1, fun _ _ h => h⟩

/-- Exact arithmetic. -/
def Arith.exact : Arith := ⟨fun x => {x}, 0, le_refl _, one_pos, fun x r h => by simp_all⟩

variable (A : Arith)

/-- `a + b`, `a - b`, `a * b`, `a / b` in machine arithmetic -/
def Arith.add (a b : ℝ) : Set ℝ := A.rnd (a + b)
def Arith.sub (a b : ℝ) : Set ℝ := A.rnd (a - b)
def Arith.mul (a b : ℝ) : Set ℝ := A.rnd (a * b)
noncomputable def Arith.div (a b : ℝ) : Set ℝ := A.rnd (a / b)

/-- An elementwise operation on an array: every element independently. -/
def vec {ι : Type*} (f : ι → Set ℝ) : Set (ι → ℝ) := {v | ∀ i, v i ∈ f i}

/-- Order and association of the additions of a reduction (`jnp.sum`): XLA leaves both unspecified.  `zero` stands for
the initial value 0 of an accumulator or for padding. -/
inductive SumTree (ι : Type*)
  | zero : SumTree ι
  | leaf (i : ι) : SumTree ι
  | node (l r : SumTree ι) : SumTree ι

namespace SumTree
variable {ι : Type*}

/-- the longest chain of additions -/
def depth : SumTree ι → ℕ
  | zero => 0
  | leaf _ => 0
  | node l r => max l.depth r.depth + 1

/-- how often the element `i` is added in -/
def count [DecidableEq ι] (i : ι) : SumTree ι → ℕ
  | zero => 0
  | leaf j => if j = i then 1 else 0
  | node l r => l.count i + r.count i

/-- Every element is added exactly once. -/
def IsReduction [DecidableEq ι] (t : SumTree ι) : Prop := ∀ i, t.count i = 1

/-- the possible results of performing the additions in machine arithmetic -/
def eval (A : Arith) (f : ι → ℝ) : SumTree ι → Set ℝ
  | zero => {0}
  | leaf i => {f i}
  | node l r => {s | ∃ a ∈ l.eval A f, ∃ b ∈ r.eval A f, s ∈ A.add a b}

end SumTree

/-- `jnp.sum(f)` in machine arithmetic: any order of additions in which no chain is longer than `d`. -/
def Arith.sum {ι : Type*} [DecidableEq ι] (d : ℕ) (f : ι → ℝ) : Set ℝ :=
  {s | ∃ t : SumTree ι, t.IsReduction ∧ t.depth ≤ d ∧ s ∈ t.eval A f}

/-- `jax.lax.scan` for a set-valued step: final carry and stacked outputs. -/
def scan {σ β γ : Type*} (f : σ → β → Set (σ × γ)) : (s : σ) → {n : ℕ} → (Fin n → β) → Set (σ × (Fin n → γ))
  | s, 0, _ => {(s, Fin.elim0)}
  | s, _ + 1, xs => {out | ∃ r ∈ f s (xs 0), ∃ rest ∈ scan f r.1 (fun i => xs i.succ),
      out = (rest.1, Fin.cons (α := fun _ => γ) r.2 rest.2)}

/-- **Specification.**  The computed number `x'` agrees with the exact number `x` up to `k` relative errors `u`:
`(1-u)^k x ≤ x' ≤ x / (1-u)^k` (written without division; used for non-negative `x`). -/
def Within (A : Arith) (k : ℕ) (x' x : ℝ) : Prop := x * (1 - A.u) ^ k ≤ x' ∧ x' * (1 - A.u) ^ k ≤ x

/-- **Specification.**  Rounding is monotone: larger exact results round to larger machine results (this includes: the
rounded result is unique). -/
def Arith.Monotone : Prop := ∀ x y, ∀ r ∈ A.rnd x, ∀ s ∈ A.rnd y, x ≤ y → r ≤ s

/-- **Specification.**  `x` is a machine number: it rounds to itself. -/
def Arith.IsMachine (x : ℝ) : Prop := A.rnd x = {x}

/-- **Specification.**  Results are machine numbers. -/
def Arith.Closed : Prop := ∀ x, ∀ r ∈ A.rnd x, A.IsMachine r

end Fl
