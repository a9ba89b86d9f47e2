import Verif.Model.RoundedCosmo
import Verif.Lemmas.Fl
import Verif.Lemmas.Utils
import Mathlib.Analysis.SpecialFunctions.Pow.Real

/-! A calculus of relative errors on a logarithmic scale: `Close δ x' x` says `e^-δ x ≤ x' ≤ e^δ x`. -/
namespace Dsps.Lemmas
open Jnp Fl

/-- `x'` equals `x ≥ 0` up to a factor `e^(±δ)` -/
def Close (δ x' x : ℝ) : Prop := 0 ≤ x ∧ x * Real.exp (-δ) ≤ x' ∧ x' ≤ x * Real.exp δ

/-- a relative accuracy `u` costs at most `η` on the logarithmic scale -/
def Tol (η u : ℝ) : Prop := 0 ≤ u ∧ Real.exp (-η) ≤ 1 - u

namespace Tol
variable {η u : ℝ}

lemma le_exp (h : Tol η u) : 1 + u ≤ Real.exp η := by
  have h1 := Real.exp_pos (-η)
  have e : Real.exp η * Real.exp (-η) = 1 := by rw [← Real.exp_add]; simp
  have h0 := Real.exp_pos η
  nlinarith [h.1, h.2, mul_le_mul_of_nonneg_left h.2 h0.le, sq_nonneg u]

lemma nonneg (h : Tol η u) : 0 ≤ η := by
  have h1 := h.le_exp
  have h0 := h.1
  by_contra hc
  push Not at hc
  have := Real.exp_lt_exp.2 hc
  rw [Real.exp_zero] at this
  linarith

lemma le (h : Tol η u) : u ≤ η := by
  have := h.2
  have h2 := Real.add_one_le_exp (-η)
  linarith

/-- `η = 1.001 u` works for small `u` -/
lemma of_small {u ε : ℝ} (h0 : 0 ≤ u) (h : u ≤ ε) (hε : ε ≤ 1 / 2000) : Tol (1.001 * ε) u := by
  refine ⟨h0, ?_⟩
  have hε0 : 0 ≤ ε := h0.trans h
  have h1 := Real.add_one_le_exp (1.001 * ε)
  have hp : (0:ℝ) < 1.001 * ε + 1 := by positivity
  have h2 : Real.exp (-(1.001 * ε)) ≤ (1.001 * ε + 1)⁻¹ := by
    rw [Real.exp_neg]; exact inv_anti₀ hp h1
  refine h2.trans ?_
  rw [inv_le_iff_one_le_mul₀ hp]
  have h3 := mul_le_mul_of_nonneg_right (show 1 - ε ≤ 1 - u by linarith) hp.le
  have h4 := mul_le_mul_of_nonneg_left hε hε0
  norm_num at h3 ⊢
  nlinarith

end Tol

namespace Close
variable {δ δ' x x' y y' : ℝ}

lemma refl (hx : 0 ≤ x) : Close 0 x x := by simp [Close, hx]

lemma nonneg (h : Close δ x' x) : 0 ≤ x' := (mul_nonneg h.1 (Real.exp_pos _).le).trans h.2.1

lemma pos (h : Close δ x' x) (hx : 0 < x) : 0 < x' := lt_of_lt_of_le (mul_pos hx (Real.exp_pos _)) h.2.1

lemma mono (h : Close δ x' x) (hd : δ ≤ δ') : Close δ' x' x :=
  ⟨h.1, (mul_le_mul_of_nonneg_left (Real.exp_le_exp.2 (by linarith)) h.1).trans h.2.1,
    h.2.2.trans (mul_le_mul_of_nonneg_left (Real.exp_le_exp.2 hd) h.1)⟩

lemma trans {x'' : ℝ} (h : Close δ x'' x') (h' : Close δ' x' x) : Close (δ + δ') x'' x := by
  refine ⟨h'.1, ?_, ?_⟩
  · rw [neg_add, Real.exp_add]
    have := mul_le_mul_of_nonneg_right h'.2.1 (Real.exp_pos (-δ)).le
    linarith [h.2.1]
  · rw [Real.exp_add]
    have := mul_le_mul_of_nonneg_right h'.2.2 (Real.exp_pos δ).le
    linarith [h.2.2]

lemma mul (h : Close δ x' x) (h' : Close δ' y' y) : Close (δ + δ') (x' * y') (x * y) := by
  have hx := h.1
  have hy := h'.1
  refine ⟨mul_nonneg hx hy, ?_, ?_⟩
  · rw [neg_add, Real.exp_add]
    calc x * y * (Real.exp (-δ) * Real.exp (-δ')) = (x * Real.exp (-δ)) * (y * Real.exp (-δ')) := by ring
      _ ≤ x' * y' := mul_le_mul h.2.1 h'.2.1 (by positivity) h.nonneg
  · rw [Real.exp_add]
    calc x' * y' ≤ (x * Real.exp δ) * (y * Real.exp δ') := mul_le_mul h.2.2 h'.2.2 h'.nonneg (by positivity)
      _ = _ := by ring

lemma inv (h : Close δ x' x) : Close δ x'⁻¹ x⁻¹ := by
  rcases h.1.eq_or_lt with h0 | h0
  · have h1 := h.2.1; have h2 := h.2.2
    rw [← h0, zero_mul] at h1 h2
    have : x' = 0 := le_antisymm h2 h1
    rw [this, ← h0]; simp [Close]
  have h0' := h.pos h0
  refine ⟨(inv_pos.2 h0).le, ?_, ?_⟩
  · rw [Real.exp_neg, ← mul_inv]; exact inv_anti₀ h0' h.2.2
  · have := inv_anti₀ (mul_pos h0 (Real.exp_pos _)) h.2.1
    rwa [mul_inv, ← Real.exp_neg, neg_neg] at this

lemma div (h : Close δ x' x) (h' : Close δ' y' y) : Close (δ + δ') (x' / y') (x / y) := by
  rw [div_eq_mul_inv, div_eq_mul_inv]; exact h.mul h'.inv

lemma add (h : Close δ x' x) (h' : Close δ y' y) : Close δ (x' + y') (x + y) :=
  ⟨add_nonneg h.1 h'.1, by linarith [h.2.1, h'.2.1], by linarith [h.2.2, h'.2.2]⟩

lemma sum {ι : Type*} [Fintype ι] {f f' : ι → ℝ} (h : ∀ i, Close δ (f' i) (f i)) : Close δ (∑ i, f' i) (∑ i, f i) :=
  ⟨Finset.sum_nonneg fun i _ => (h i).1, by rw [Finset.sum_mul]; exact Finset.sum_le_sum fun i _ => (h i).2.1,
    by rw [Finset.sum_mul]; exact Finset.sum_le_sum fun i _ => (h i).2.2⟩

lemma sqrt (h : Close δ x' x) : Close (δ / 2) (Real.sqrt x') (Real.sqrt x) := by
  have e : ∀ t : ℝ, Real.exp (t / 2) = Real.sqrt (Real.exp t) := fun t => by
    rw [eq_comm, Real.sqrt_eq_iff_mul_self_eq (Real.exp_pos _).le (Real.exp_pos _).le, ← Real.exp_add]; congr 1; ring
  refine ⟨Real.sqrt_nonneg _, ?_, ?_⟩
  · rw [← neg_div, e, ← Real.sqrt_mul h.1]; exact Real.sqrt_le_sqrt h.2.1
  · rw [e, ← Real.sqrt_mul h.1]; exact Real.sqrt_le_sqrt h.2.2

lemma of_rel {η u r : ℝ} (ht : Tol η u) (hx : 0 ≤ x) (h : |r - x| ≤ u * x) : Close η r x := by
  have := abs_le.1 h
  refine ⟨hx, ?_, ?_⟩
  · have := mul_le_mul_of_nonneg_left ht.2 hx; linarith
  · have := mul_le_mul_of_nonneg_left ht.le_exp hx; linarith

lemma rnd {A : Arith} {η r : ℝ} (ht : Tol η A.u) (h : Close δ x' x) (hr : r ∈ A.rnd x') : Close (δ + η) r x := by
  have h1 := A.rel _ _ hr
  rw [abs_of_nonneg h.nonneg] at h1
  have := (of_rel ht h.nonneg h1).trans h
  rwa [add_comm]

lemma abs_log (h : Close δ x' x) (hx : 0 < x) : |Real.log x' - Real.log x| ≤ δ := by
  have hx' := h.pos hx
  have h1 := Real.log_le_log (mul_pos hx (Real.exp_pos _)) h.2.1
  have h2 := Real.log_le_log hx' h.2.2
  rw [Real.log_mul hx.ne' (Real.exp_pos _).ne', Real.log_exp] at h1 h2
  rw [abs_le]; constructor <;> linarith

lemma of_log (hx : 0 < x) (hx' : 0 < x') (h : |Real.log x' - Real.log x| ≤ δ) : Close δ x' x := by
  have h1 := abs_le.1 h
  refine ⟨hx.le, ?_, ?_⟩
  · rw [← Real.log_le_log_iff (mul_pos hx (Real.exp_pos _)) hx', Real.log_mul hx.ne' (Real.exp_pos _).ne', Real.log_exp]; linarith
  · rw [← Real.log_le_log_iff hx' (mul_pos hx (Real.exp_pos _)), Real.log_mul hx.ne' (Real.exp_pos _).ne', Real.log_exp]; linarith

/-- absolute error from `Close` -/
lemma abs_sub (h : Close δ x' x) : |x' - x| ≤ (Real.exp δ - 1) * x := by
  have h0 := h.1
  have h1 : 1 - Real.exp (-δ) ≤ Real.exp δ - 1 := by
    have e : Real.exp δ * Real.exp (-δ) = 1 := by rw [← Real.exp_add]; simp
    nlinarith [Real.exp_pos δ, Real.exp_pos (-δ), sq_nonneg (Real.exp δ - 1)]
  have := mul_le_mul_of_nonneg_right h1 h0
  rw [abs_le]; constructor <;> nlinarith [h.2.1, h.2.2]

end Close

lemma exp_sub_one_le {x c : ℝ} (h0 : 0 ≤ x) (hx : x ≤ 1 / 10) (hc : x ≤ c) : Real.exp x - 1 ≤ (1 + c) * x := by
  have := Real.abs_exp_sub_one_sub_id_le (x := x) (by rw [abs_of_nonneg h0]; linarith)
  have := (abs_le.1 this).2
  nlinarith

/-- a relative error bound from `Close` -/
lemma Close.rel {δ x' x : ℝ} (h : Close δ x' x) (h0 : 0 ≤ δ) (hδ : δ ≤ 1 / 100) : |x' - x| ≤ 1.01 * δ * x := by
  refine h.abs_sub.trans (mul_le_mul_of_nonneg_right ?_ h.1)
  have := exp_sub_one_le h0 (by linarith) hδ
  norm_num at this ⊢; linarith

/-- conversely, a small relative error -/
lemma Close.of_small {κ x' x : ℝ} (hx : 0 ≤ x) (h0 : 0 ≤ κ) (hκ : κ ≤ 1 / 100) (h : |x' - x| ≤ κ * x) : Close (1.02 * κ) x' x := by
  have h1 := abs_le.1 h
  have e1 := Real.add_one_le_exp (1.02 * κ)
  have hp : (0:ℝ) < 1.02 * κ + 1 := by positivity
  have e2 : Real.exp (-(1.02 * κ)) ≤ 1 - κ := by
    rw [Real.exp_neg]
    refine (inv_anti₀ hp e1).trans ?_
    rw [inv_le_iff_one_le_mul₀ hp]
    norm_num at hκ ⊢
    nlinarith
  refine ⟨hx, ?_, ?_⟩
  · have := mul_le_mul_of_nonneg_left e2 hx; linarith
  · have := mul_le_mul_of_nonneg_left (show 1 + κ ≤ Real.exp (1.02 * κ) by norm_num at e1 ⊢; linarith) hx; linarith

variable {A P : Arith} {η v : ℝ}

lemma close_intPow (ht : Tol η A.u) {z z' δ : ℝ} (hz : Close δ z' z) {k : ℕ} {r : ℝ} (h : Rounded.IntPow A z' k r) :
    1 ≤ k ∧ Close (k * δ + (k - 1) * η) r (z ^ k) := by
  induction h with
  | one => refine ⟨le_rfl, ?_⟩; simpa using hz
  | @mul i j a b r _ _ hr ih1 ih2 =>
    refine ⟨by omega, ?_⟩
    have := (ih1.2.mul ih2.2).rnd ht hr
    rw [pow_add]
    convert this using 1
    push_cast; ring

/-! ### sums and trapezoids -/

lemma close_tree {ι : Type*} [DecidableEq ι] [Fintype ι] (ht : Tol η A.u) {δ : ℝ} {f f' : ι → ℝ} (h : ∀ i, Close δ (f' i) (f i))
    (t : SumTree ι) : ∀ s ∈ t.eval A f', Close (δ + t.depth * η) s (∑ i, (t.count i : ℝ) * f i) := by
  have hη := ht.nonneg
  induction t with
  | zero => intro s hs; simp only [SumTree.eval, Set.mem_singleton_iff] at hs; subst hs; simp [SumTree.count, Close]
  | leaf j =>
    intro s hs
    simp only [SumTree.eval, Set.mem_singleton_iff] at hs
    subst hs
    rw [tree_sum]
    simpa [SumTree.depth] using h j
  | node l r ihl ihr =>
    rintro s ⟨a, ha, b, hb, hs⟩
    rw [tree_sum]
    have h1 := (ihl a ha).mono (δ' := δ + (max l.depth r.depth : ℕ) * η) (by
      gcongr; exact le_max_left _ _)
    have h2 := (ihr b hb).mono (δ' := δ + (max l.depth r.depth : ℕ) * η) (by
      gcongr; exact le_max_right _ _)
    have := (h1.add h2).rnd ht hs
    convert this using 1
    simp only [SumTree.depth]; push_cast; ring

lemma close_sum {ι : Type*} [DecidableEq ι] [Fintype ι] (ht : Tol η A.u) {δ : ℝ} {d : ℕ} {f f' : ι → ℝ}
    (h : ∀ i, Close δ (f' i) (f i)) {s : ℝ} (hs : s ∈ A.sum d f') : Close (δ + d * η) s (∑ i, f i) := by
  obtain ⟨t, hr, hd, hs⟩ := hs
  have := close_tree ht h t s hs
  have e : ∑ i, (t.count i : ℝ) * f i = ∑ i, f i := Finset.sum_congr rfl fun i _ => by rw [hr i]; simp
  rw [e] at this
  refine this.mono ?_
  have := ht.nonneg
  have : (t.depth : ℝ) ≤ d := by exact_mod_cast hd
  gcongr

/-- A trapezoid sum with grid spacings off by `g` and ordinates off by `k`. -/
lemma close_trapezoid {n : ℕ} (ht : Tol η A.u) {g k : ℝ} {d : ℕ} {x x' y y' : Fin (n + 1) → ℝ}
    (hx : ∀ i : Fin n, Close g (x' i.succ - x' i.castSucc) (x i.succ - x i.castSucc)) (hy : ∀ i, Close k (y' i) (y i)) {r : ℝ}
    (hr : r ∈ Rounded.trapezoid A d y' x') : Close (g + k + (d + 4) * η) r (Utils.trapz x y) := by
  obtain ⟨dx, h1, s, h2, p, h3, t, h4, h5⟩ := hr
  have w1 : ∀ i : Fin n, Close (g + η) (dx i) (x i.succ - x i.castSucc) := fun i => (hx i).rnd ht (h1 i)
  have w2 : ∀ i : Fin n, Close (k + η) (s i) (y i.castSucc + y i.succ) := fun i => by
    have := ((hy i.succ).add (hy i.castSucc)).rnd ht (h2 i)
    rwa [add_comm (y i.succ)] at this
  have w3 : ∀ i : Fin n, Close (g + k + 3 * η) (p i) ((x i.succ - x i.castSucc) * (y i.castSucc + y i.succ)) := fun i =>
    (((w1 i).mul (w2 i)).rnd ht (h3 i)).mono (by linarith)
  have w4 := close_sum ht w3 h4
  have w5 := ((Close.refl (by norm_num : (0:ℝ) ≤ 0.5)).mul w4).rnd ht h5
  have e : Utils.trapz x y = 0.5 * ∑ i : Fin n, (x i.succ - x i.castSucc) * (y i.castSucc + y i.succ) := by
    rw [trapz_eq, Finset.mul_sum]
    exact Finset.sum_congr rfl fun i _ => by norm_num; ring
  rw [e]
  exact w5.mono (by linarith)

/-! ### the `jnp.linspace(0, z, n+2)` table -/

lemma close_linspace (ht : Tol η A.u) {z : ℝ} (hz : 0 ≤ z) {n : ℕ} {x : Fin (n + 2) → ℝ} (hx : x ∈ Rounded.linspace A 0 z n) (i : Fin (n + 2)) :
    Close (3 * η) (x i) (linspace 0 z n i) := by
  have hη := ht.nonneg
  have h := hx i
  rw [linspace]
  simp only [Set.mem_setOf_eq] at h
  split_ifs at h ⊢ with hl
  · rw [h]; exact (Close.refl hz).mono (by linarith)
  · obtain ⟨s, hs, a, ha, b, hb, c, hc, ho⟩ := h
    have hb0 : b = 0 := by rw [Arith.mul, zero_mul] at hb; exact rnd_zero hb
    subst hb0
    have w1 := (Close.refl (show 0 ≤ (i:ℝ) / ((n:ℝ) + 1) by positivity)).rnd ht hs
    have w2 := ((Close.refl hz).mul w1).rnd ht hc
    rw [Arith.add, zero_add] at ho
    have w3 := w2.rnd ht ho
    rw [zero_mul, zero_add]
    exact w3.mono (by linarith)

lemma linspace_cell (z : ℝ) (n : ℕ) (i : Fin (n + 1)) :
    linspace 0 z n i.succ - linspace 0 z n i.castSucc = z / ((n:ℝ) + 1) ∧
    linspace 0 z n i.succ + linspace 0 z n i.castSucc = (2 * (i:ℝ) + 1) * (z / ((n:ℝ) + 1)) := by
  have e : ∀ j : Fin (n + 2), linspace 0 z n j = z * ((j : ℕ) / ((n : ℝ) + 1)) := fun j => by
    unfold linspace
    split_ifs with h
    · subst h
      have : ((n : ℝ) + 1) ≠ 0 := by positivity
      simp [this]
    · ring
  rw [e, e]
  simp only [Fin.val_succ, Fin.val_castSucc]
  push_cast
  constructor <;> ring

/-- grid spacings, without any assumption on the ordinates -/
lemma linspace_spacing (ht : Tol η A.u) {z : ℝ} (hz : 0 ≤ z) {n : ℕ} (hn : (2 * n + 1 : ℝ) * (3.1 * η) ≤ 1 / 100) {x : Fin (n + 2) → ℝ}
    (hx : x ∈ Rounded.linspace A 0 z n) (i : Fin (n + 1)) :
    Close ((2 * n + 1) * (3.2 * η)) (x i.succ - x i.castSucc) (linspace 0 z n i.succ - linspace 0 z n i.castSucc) := by
  have hη := ht.nonneg
  obtain ⟨e1, e2⟩ := linspace_cell z n i
  have hc : 0 ≤ z / ((n:ℝ) + 1) := by positivity
  have h3 : 3 * η ≤ 1 / 100 := by
    have : (0:ℝ) ≤ n := Nat.cast_nonneg n
    nlinarith
  have a1 := (close_linspace ht hz hx i.succ).rel (by linarith) h3
  have a2 := (close_linspace ht hz hx i.castSucc).rel (by linarith) h3
  have hi : (i:ℝ) ≤ n := by exact_mod_cast Nat.lt_succ_iff.1 i.2
  have key : |x i.succ - x i.castSucc - (linspace 0 z n i.succ - linspace 0 z n i.castSucc)|
      ≤ ((2 * n + 1) * (3.1 * η)) * (linspace 0 z n i.succ - linspace 0 z n i.castSucc) := by
    calc _ = |(x i.succ - linspace 0 z n i.succ) - (x i.castSucc - linspace 0 z n i.castSucc)| := by congr 1; ring
      _ ≤ |x i.succ - linspace 0 z n i.succ| + |x i.castSucc - linspace 0 z n i.castSucc| := _root_.abs_sub _ _
      _ ≤ 1.01 * (3 * η) * (linspace 0 z n i.succ + linspace 0 z n i.castSucc) := by linarith
      _ ≤ _ := by
        rw [e2, e1]
        have : (2 * (i:ℝ) + 1) * (z / (n + 1)) ≤ (2 * n + 1) * (z / (n + 1)) := by gcongr
        have h2 := mul_le_mul_of_nonneg_left this (show 0 ≤ 1.01 * (3 * η) by positivity)
        have h4 : 0 ≤ η * ((2 * n + 1) * (z / ((n:ℝ) + 1))) := by positivity
        norm_num at h2 ⊢
        nlinarith
  refine (Close.of_small (by rw [e1]; exact hc) (by positivity) hn key).mono ?_
  have : 0 ≤ (2 * n + 1 : ℝ) * η := by positivity
  norm_num; nlinarith

/-- summation by parts: for non-increasing ordinates, relative errors of the abscissae are not amplified -/
lemma trapz_abel {n : ℕ} (x f : Fin (n + 2) → ℝ) (h0 : x 0 = 0) :
    2 * Utils.trapz x f = x (Fin.last (n + 1)) * (f (Fin.last (n + 1)) + f (Fin.last n).castSucc)
      + ∑ i : Fin n, x i.castSucc.succ * (f i.castSucc.castSucc - f i.succ.succ) := by
  rw [trapz_eq, Finset.mul_sum]
  induction n with
  | zero => simp [h0]; ring
  | succ n ih =>
    rw [Fin.sum_univ_castSucc]
    have := ih (fun i => x i.castSucc) (fun i => f i.castSucc) h0
    simp only [Fin.succ_castSucc] at this ⊢
    rw [this, Fin.sum_univ_castSucc (n := n)]
    simp only [Fin.succ_castSucc, Fin.succ_last]
    ring

lemma close_trapz_abel {n : ℕ} {g : ℝ} {x x' f : Fin (n + 2) → ℝ} (h : ∀ i, Close g (x' i) (x i)) (h0 : x 0 = 0) (hf : Antitone f)
    (hf0 : ∀ i, 0 ≤ f i) : Close g (Utils.trapz x' f) (Utils.trapz x f) := by
  have h0' : x' 0 = 0 := by
    have a := (h 0).2.1; have b := (h 0).2.2
    rw [h0, zero_mul] at a b; linarith
  have z0 : ∀ a : ℝ, 0 ≤ a → Close (0:ℝ) a a := fun a ha => Close.refl ha
  have w1 := (h (Fin.last (n + 1))).mul (z0 _ (add_nonneg (hf0 (Fin.last (n + 1))) (hf0 (Fin.last n).castSucc)))
  have w2 : Close (g + 0) (∑ i : Fin n, x' i.castSucc.succ * (f i.castSucc.castSucc - f i.succ.succ))
      (∑ i : Fin n, x i.castSucc.succ * (f i.castSucc.castSucc - f i.succ.succ)) := Close.sum fun i =>
    (h i.castSucc.succ).mul (z0 _ (sub_nonneg.2 (hf (by
      rw [Fin.le_def]; simp only [Fin.val_castSucc, Fin.val_succ]; omega))))
  have w := (w1.add w2).mul (z0 (1/2) (by norm_num))
  rw [← trapz_abel x f h0, ← trapz_abel x' f h0'] at w
  convert w using 1 <;> ring

end Dsps.Lemmas
