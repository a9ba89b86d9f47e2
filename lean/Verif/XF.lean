/-
Extended floats: real numbers together with the special values of IEEE 754 (nan, the two infinities and negative zero) and
their arithmetic rules, without rounding, overflow and underflow.

The rest of the model works in `ℝ`, where Lean's division and logarithm are totalised.  The files `Verif/Model/XF*.lean`
re-model the functions in which nan or inf can arise with this type instead, so that "is finite", "is nan" can be stated and
proved.  `Rep a x` says that the float `a` is the finite number `x`.
-/
import Verif.Jnp

/-- A float: nan, infinity with a sign bit, negative zero, or a finite number (`fin 0` is positive zero). -/
inductive XF
  | nan
  | inf (neg : Bool)
  | nzero
  | fin (x : ℝ)

namespace XF
open Classical

noncomputable instance (n : ℕ) [OfNat ℝ n] : OfNat XF n := ⟨fin (OfNat.ofNat n)⟩
noncomputable instance : OfScientific XF := ⟨fun m s e => fin (OfScientific.ofScientific m s e)⟩
noncomputable instance : Coe ℝ XF := ⟨fin⟩

/-- The sign bit of a number known not to be nan. -/
noncomputable def signbit : XF → Bool
  | nan => false
  | inf s => s
  | nzero => true
  | fin x => decide (x < 0)

/-- zero with a sign -/
noncomputable def zeroOf (neg : Bool) : XF := if neg then nzero else fin 0

noncomputable def neg : XF → XF
  | nan => nan
  | inf s => inf (!s)
  | nzero => fin 0
  | fin x => if x = 0 then nzero else fin (-x)

noncomputable def add : XF → XF → XF
  | nan, _ => nan
  | _, nan => nan
  | inf s, inf t => if s = t then inf s else nan
  | inf s, _ => inf s
  | _, inf t => inf t
  | nzero, b => b
  | a, nzero => a
  | fin x, fin y => fin (x + y)

/-- the finite value: 0 for both zeros -/
noncomputable def val : XF → ℝ
  | fin x => x
  | _ => 0

noncomputable def mul (a b : XF) : XF :=
  match a, b with
  | nan, _ => nan
  | _, nan => nan
  | inf s, b => match b with
    | inf t => inf (xor s t)
    | b => if b.val = 0 then nan else inf (xor s b.signbit)
  | a, inf t => if a.val = 0 then nan else inf (xor a.signbit t)
  | a, b => if a.val * b.val = 0 then zeroOf (xor a.signbit b.signbit) else fin (a.val * b.val)

noncomputable def div (a b : XF) : XF :=
  match a, b with
  | nan, _ => nan
  | _, nan => nan
  | inf _, inf _ => nan
  | inf s, b => inf (xor s b.signbit)
  | a, inf t => zeroOf (xor a.signbit t)
  | a, b =>
    if b.val = 0 then (if a.val = 0 then nan else inf (xor a.signbit b.signbit))
    else if a.val = 0 then zeroOf (xor a.signbit b.signbit) else fin (a.val / b.val)

noncomputable instance : Neg XF := ⟨neg⟩
noncomputable instance : Add XF := ⟨add⟩
noncomputable instance : Sub XF := ⟨fun a b => add a (neg b)⟩
noncomputable instance : Mul XF := ⟨mul⟩
noncomputable instance : Div XF := ⟨div⟩

/-- `a ** n` for a literal positive integer exponent: repeated multiplication -/
noncomputable def npow (a : XF) : ℕ → XF
  | 0 => fin 1
  | 1 => a
  | n + 2 => npow a (n + 1) * a
noncomputable instance : HPow XF ℕ XF := ⟨npow⟩

/-- natural logarithm -/
noncomputable def log : XF → XF
  | nan => nan
  | inf false => inf false
  | inf true => nan
  | nzero => inf true
  | fin x => if x = 0 then inf true else if x < 0 then nan else fin (Real.log x)

/-- base ten logarithm -/
noncomputable def log10 : XF → XF
  | nan => nan
  | inf false => inf false
  | inf true => nan
  | nzero => inf true
  | fin x => if x = 0 then inf true else if x < 0 then nan else fin (Real.logb 10 x)

noncomputable def exp : XF → XF
  | nan => nan
  | inf false => inf false
  | inf true => fin 0
  | nzero => fin 1
  | fin x => fin (Real.exp x)

/-- `10 ** a` -/
noncomputable def exp10 : XF → XF
  | nan => nan
  | inf false => inf false
  | inf true => fin 0
  | nzero => fin 1
  | fin x => fin ((10 : ℝ) ^ x)

/-- `a < b`: false if either is nan; the two zeros are equal -/
def lt : XF → XF → Prop
  | nan, _ => False
  | _, nan => False
  | inf s, inf t => s = true ∧ t = false
  | inf s, _ => s = true
  | _, inf t => t = false
  | a, b => a.val < b.val
instance : LT XF := ⟨lt⟩

/-- `a == b`: false if either is nan; the two zeros are equal -/
def eqv : XF → XF → Prop
  | nan, _ => False
  | _, nan => False
  | inf s, inf t => s = t
  | inf _, _ => False
  | _, inf _ => False
  | a, b => a.val = b.val

/-- `a <= b` -/
instance : LE XF := ⟨fun a b => lt a b ∨ eqv a b⟩

/-- `jnp.sum` -/
noncomputable def sum {n : ℕ} (a : Fin n → XF) : XF := (List.ofFn a).foldl (· + ·) (fin 0)

/-- The float `a` is the finite number `x`. -/
def Rep (a : XF) (x : ℝ) : Prop := a = fin x ∨ (a = nzero ∧ x = 0)

/-- neither nan nor infinite -/
def IsFinite (a : XF) : Prop := ∃ x, Rep a x

/-! ### Basic facts -/

theorem Rep.fin (x : ℝ) : Rep (fin x) x := Or.inl rfl
theorem Rep.nzero : Rep nzero 0 := Or.inr ⟨rfl, rfl⟩

theorem Rep.unique {a : XF} {x y : ℝ} (h : Rep a x) (h' : Rep a y) : x = y := by
  rcases h with rfl | ⟨rfl, rfl⟩ <;> rcases h' with h' | ⟨h', rfl⟩ <;> first | rfl | cases h' | skip
  · rfl

theorem not_rep_nan (x : ℝ) : ¬ Rep nan x := by rintro (h | ⟨h, -⟩) <;> cases h
theorem not_rep_inf (s : Bool) (x : ℝ) : ¬ Rep (inf s) x := by rintro (h | ⟨h, -⟩) <;> cases h

theorem Rep.val {a : XF} {x : ℝ} (h : Rep a x) : a.val = x := by
  rcases h with rfl | ⟨rfl, rfl⟩ <;> rfl

theorem rep_zeroOf (s : Bool) : Rep (zeroOf s) 0 := by
  cases s <;> simp [zeroOf, Rep]

@[simp] theorem add_def (a b : XF) : a + b = add a b := rfl
@[simp] theorem sub_def (a b : XF) : a - b = add a (neg b) := rfl
@[simp] theorem mul_def (a b : XF) : a * b = mul a b := rfl
@[simp] theorem div_def (a b : XF) : a / b = div a b := rfl
@[simp] theorem neg_def (a : XF) : -a = neg a := rfl
@[simp] theorem lt_def (a b : XF) : (a < b) = lt a b := rfl
@[simp] theorem le_def (a b : XF) : (a ≤ b) = (lt a b ∨ eqv a b) := rfl

theorem Rep.neg {a : XF} {x : ℝ} (h : Rep a x) : Rep (-a) (-x) := by
  rcases h with rfl | ⟨rfl, rfl⟩
  · by_cases hx : x = 0 <;> simp [XF.neg, hx, Rep]
  · simp [XF.neg, Rep]

theorem Rep.add {a b : XF} {x y : ℝ} (h : Rep a x) (h' : Rep b y) : Rep (a + b) (x + y) := by
  rcases h with rfl | ⟨rfl, rfl⟩ <;> rcases h' with rfl | ⟨rfl, rfl⟩ <;> simp [XF.add, Rep]

theorem Rep.sub {a b : XF} {x y : ℝ} (h : Rep a x) (h' : Rep b y) : Rep (a - b) (x - y) := by
  rw [sub_eq_add_neg]; exact h.add h'.neg

theorem Rep.mul {a b : XF} {x y : ℝ} (h : Rep a x) (h' : Rep b y) : Rep (a * b) (x * y) := by
  have key : a * b = if a.val * b.val = 0 then zeroOf (xor a.signbit b.signbit) else .fin (a.val * b.val) := by
    rcases h with rfl | ⟨rfl, rfl⟩ <;> rcases h' with rfl | ⟨rfl, rfl⟩ <;> rfl
  rw [key, h.val, h'.val]
  split_ifs with h0
  · rw [h0]; exact rep_zeroOf _
  · exact Or.inl rfl

theorem Rep.div {a b : XF} {x y : ℝ} (h : Rep a x) (h' : Rep b y) (hy : y ≠ 0) : Rep (a / b) (x / y) := by
  have key : a / b = if b.val = 0 then (if a.val = 0 then nan else inf (xor a.signbit b.signbit))
    else if a.val = 0 then zeroOf (xor a.signbit b.signbit) else .fin (a.val / b.val) := by
    rcases h with rfl | ⟨rfl, rfl⟩ <;> rcases h' with rfl | ⟨rfl, rfl⟩ <;> rfl
  rw [key, h.val, h'.val, if_neg hy]
  split_ifs with h0
  · rw [h0, zero_div]; exact rep_zeroOf _
  · exact Or.inl rfl

/-- `x / 0` -/
theorem Rep.div_zero {a b : XF} {x : ℝ} (h : Rep a x) (h' : Rep b 0) :
    a / b = if x = 0 then nan else inf (xor a.signbit b.signbit) := by
  have key : a / b = if b.val = 0 then (if a.val = 0 then nan else inf (xor a.signbit b.signbit))
    else if a.val = 0 then zeroOf (xor a.signbit b.signbit) else .fin (a.val / b.val) := by
    rcases h with rfl | ⟨rfl, rfl⟩ <;> rcases h' with rfl | ⟨rfl, -⟩ <;> rfl
  rw [key, h.val, h'.val, if_pos rfl]

theorem Rep.npow {a : XF} {x : ℝ} (h : Rep a x) : ∀ n : ℕ, Rep (a ^ n) (x ^ n)
  | 0 => by rw [pow_zero]; exact Rep.fin 1
  | 1 => by rw [pow_one]; exact h
  | n + 2 => by rw [pow_succ]; exact (Rep.npow h (n + 1)).mul h

theorem Rep.log {a : XF} {x : ℝ} (h : Rep a x) (hx : 0 < x) : XF.log a = .fin (Real.log x) := by
  rcases h with rfl | ⟨rfl, rfl⟩
  · simp [XF.log, hx.ne', hx.not_gt]
  · exact absurd hx (lt_irrefl _)

theorem Rep.log_zero {a : XF} (h : Rep a 0) : XF.log a = inf true := by
  rcases h with rfl | ⟨rfl, -⟩ <;> simp [XF.log]

theorem Rep.log_neg {a : XF} {x : ℝ} (h : Rep a x) (hx : x < 0) : XF.log a = nan := by
  rcases h with rfl | ⟨rfl, rfl⟩
  · simp [XF.log, hx.ne, hx]
  · exact absurd hx (lt_irrefl _)

theorem Rep.log10 {a : XF} {x : ℝ} (h : Rep a x) (hx : 0 < x) : XF.log10 a = .fin (Real.logb 10 x) := by
  rcases h with rfl | ⟨rfl, rfl⟩
  · simp [XF.log10, hx.ne', hx.not_gt]
  · exact absurd hx (lt_irrefl _)

theorem Rep.log10_zero {a : XF} (h : Rep a 0) : XF.log10 a = inf true := by
  rcases h with rfl | ⟨rfl, -⟩ <;> simp [XF.log10]

theorem Rep.log10_neg {a : XF} {x : ℝ} (h : Rep a x) (hx : x < 0) : XF.log10 a = nan := by
  rcases h with rfl | ⟨rfl, rfl⟩
  · simp [XF.log10, hx.ne, hx]
  · exact absurd hx (lt_irrefl _)

theorem Rep.exp {a : XF} {x : ℝ} (h : Rep a x) : XF.exp a = .fin (Real.exp x) := by
  rcases h with rfl | ⟨rfl, rfl⟩ <;> simp [XF.exp]

theorem Rep.exp10 {a : XF} {x : ℝ} (h : Rep a x) : XF.exp10 a = .fin ((10 : ℝ) ^ x) := by
  rcases h with rfl | ⟨rfl, rfl⟩ <;> simp [XF.exp10]

theorem Rep.lt_iff {a b : XF} {x y : ℝ} (h : Rep a x) (h' : Rep b y) : a < b ↔ x < y := by
  rcases h with rfl | ⟨rfl, rfl⟩ <;> rcases h' with rfl | ⟨rfl, rfl⟩ <;> simp [XF.lt, XF.val]

theorem Rep.eqv_iff {a b : XF} {x y : ℝ} (h : Rep a x) (h' : Rep b y) : eqv a b ↔ x = y := by
  rcases h with rfl | ⟨rfl, rfl⟩ <;> rcases h' with rfl | ⟨rfl, rfl⟩ <;> simp [XF.eqv, XF.val]

theorem Rep.le_iff {a b : XF} {x y : ℝ} (h : Rep a x) (h' : Rep b y) : a ≤ b ↔ x ≤ y := by
  have e1 := h.lt_iff h'
  have e2 := h.eqv_iff h'
  rw [lt_def] at e1
  rw [le_def, e1, e2, le_iff_lt_or_eq]

@[simp] theorem nan_add (b : XF) : nan + b = nan := rfl
@[simp] theorem add_nan (a : XF) : a + nan = nan := by cases a <;> rfl
@[simp] theorem neg_nan : -nan = nan := rfl
@[simp] theorem nan_sub (b : XF) : nan - b = nan := rfl
@[simp] theorem sub_nan (a : XF) : a - nan = nan := by show a + -nan = nan; simp only [neg_nan, add_nan]
@[simp] theorem nan_mul (b : XF) : nan * b = nan := rfl
@[simp] theorem mul_nan (a : XF) : a * nan = nan := by cases a <;> rfl
@[simp] theorem nan_div (b : XF) : nan / b = nan := rfl
@[simp] theorem div_nan (a : XF) : a / nan = nan := by cases a <;> rfl
@[simp] theorem log_nan : log nan = nan := rfl
@[simp] theorem log10_nan : log10 nan = nan := rfl
@[simp] theorem exp_nan : exp nan = nan := rfl
@[simp] theorem exp10_nan : exp10 nan = nan := rfl
@[simp] theorem not_nan_lt (b : XF) : ¬ nan < b := by intro h; exact h
@[simp] theorem not_lt_nan (a : XF) : ¬ a < nan := by cases a <;> exact id
@[simp] theorem not_nan_le (b : XF) : ¬ nan ≤ b := by rintro (h | h) <;> exact h
@[simp] theorem not_le_nan (a : XF) : ¬ a ≤ nan := by cases a <;> rintro (h | h) <;> exact h

theorem Rep.inf_add {b : XF} {y : ℝ} (h : Rep b y) (s : Bool) : inf s + b = inf s := by
  rcases h with rfl | ⟨rfl, rfl⟩ <;> rfl
theorem Rep.add_inf {a : XF} {x : ℝ} (h : Rep a x) (s : Bool) : a + inf s = inf s := by
  rcases h with rfl | ⟨rfl, rfl⟩ <;> rfl
@[simp] theorem neg_inf (s : Bool) : -(inf s) = inf (!s) := rfl
theorem Rep.inf_sub {b : XF} {y : ℝ} (h : Rep b y) (s : Bool) : inf s - b = inf s := h.neg.inf_add s
theorem Rep.sub_inf {a : XF} {x : ℝ} (h : Rep a x) (s : Bool) : a - inf s = inf (!s) := h.add_inf (!s)

/-- The sign bit of a nonzero number. -/
theorem Rep.signbit {a : XF} {x : ℝ} (h : Rep a x) (hx : x ≠ 0) : a.signbit = decide (x < 0) := by
  rcases h with rfl | ⟨rfl, rfl⟩
  · rfl
  · exact absurd rfl hx

theorem Rep.inf_mul {b : XF} {y : ℝ} (h : Rep b y) (hy : y ≠ 0) (s : Bool) : inf s * b = inf (xor s (decide (y < 0))) := by
  rcases h with rfl | ⟨rfl, rfl⟩
  · simp [XF.mul, XF.val, hy, XF.signbit]
  · exact absurd rfl hy

theorem Rep.mul_inf {a : XF} {x : ℝ} (h : Rep a x) (hx : x ≠ 0) (s : Bool) : a * inf s = inf (xor (decide (x < 0)) s) := by
  rcases h with rfl | ⟨rfl, rfl⟩
  · simp [XF.mul, XF.val, hx, XF.signbit]
  · exact absurd rfl hx

theorem Rep.zero_mul_inf {a : XF} (h : Rep a 0) (s : Bool) : a * inf s = nan := by
  rcases h with rfl | ⟨rfl, -⟩ <;> simp [XF.mul, XF.val]

theorem Rep.inf_mul_zero {a : XF} (h : Rep a 0) (s : Bool) : inf s * a = nan := by
  rcases h with rfl | ⟨rfl, -⟩ <;> simp [XF.mul, XF.val]

theorem Rep.inf_div {b : XF} {y : ℝ} (h : Rep b y) (hy : y ≠ 0) (s : Bool) : inf s / b = inf (xor s (decide (y < 0))) := by
  rcases h with rfl | ⟨rfl, rfl⟩
  · simp [XF.div, XF.signbit]
  · exact absurd rfl hy

theorem Rep.div_inf {a : XF} {x : ℝ} (h : Rep a x) (s : Bool) : Rep (a / inf s) 0 := by
  rcases h with rfl | ⟨rfl, rfl⟩ <;> exact rep_zeroOf _

theorem rep_ite {p q : Prop} [Decidable p] [Decidable q] (hpq : p ↔ q) {a b : XF} {x y : ℝ} (h : q → Rep a x)
    (h' : ¬ q → Rep b y) : Rep (if p then a else b) (if q then x else y) := by
  by_cases hq : q
  · rw [if_pos hq, if_pos (hpq.2 hq)]; exact h hq
  · rw [if_neg hq, if_neg (fun hp => hq (hpq.1 hp))]; exact h' hq

theorem foldl_nan (l : List XF) : l.foldl (· + ·) nan = nan := by
  induction l with
  | nil => rfl
  | cons a l ih => rw [List.foldl_cons, nan_add]; exact ih

theorem foldl_mem_nan {l : List XF} (h : nan ∈ l) (s : XF) : l.foldl (· + ·) s = nan := by
  induction l generalizing s with
  | nil => cases h
  | cons a l ih =>
    rw [List.foldl_cons]
    rcases List.mem_cons.1 h with h | h
    · rw [← h, add_nan, foldl_nan]
    · exact ih h _

theorem sum_nan {n : ℕ} {a : Fin n → XF} {i : Fin n} (h : a i = nan) : sum a = nan :=
  foldl_mem_nan (by rw [List.mem_ofFn]; exact ⟨i, h⟩) _

theorem rep_foldl {l : List XF} {l' : List ℝ} (h : List.Forall₂ Rep l l') {s : XF} {t : ℝ} (hs : Rep s t) :
    Rep (l.foldl (· + ·) s) (t + l'.sum) := by
  induction h generalizing s t with
  | nil => simpa using hs
  | @cons a x l l' ha hl ih =>
    rw [List.foldl_cons, List.sum_cons, ← add_assoc]
    exact ih (hs.add ha)

theorem rep_sum {n : ℕ} {a : Fin n → XF} {x : Fin n → ℝ} (h : ∀ i, Rep (a i) (x i)) : Rep (sum a) (Jnp.sum x) := by
  have h2 : List.Forall₂ Rep (List.ofFn a) (List.ofFn x) := by
    rw [List.forall₂_iff_get]
    refine ⟨by simp, fun i h1 h2 => ?_⟩
    simpa using h ⟨i, by simpa using h1⟩
  have := rep_foldl h2 (Rep.fin 0)
  rw [zero_add, List.sum_ofFn] at this
  exact this

end XF
