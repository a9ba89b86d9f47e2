import Verif.Model.Rounded
import Verif.Lemmas.Interp
import Mathlib.Tactic.Linarith
import Mathlib.Tactic.Ring
import Mathlib.Tactic.Positivity
import Mathlib.Tactic.FieldSimp

/-! Error propagation in the arithmetic of `Verif/Fl.lean`. -/
namespace Dsps.Lemmas
open Fl

variable {A : Arith}

/-- absolute error bound: `|x' - x| ≤ (G^k - 1) M`, with `G = 1/(1-u)`, `|x| ≤ M` -/
def Near (A : Arith) (k : ℕ) (x' x M : ℝ) : Prop := |x| ≤ M ∧ |x' - x| ≤ ((1 / (1 - A.u)) ^ k - 1) * M

lemma q_pos (A : Arith) : 0 < 1 - A.u := by linarith [A.u_lt_one]
lemma q_le (A : Arith) : 1 - A.u ≤ 1 := by linarith [A.u_nonneg]
lemma qp_pos (A : Arith) (k : ℕ) : 0 < (1 - A.u) ^ k := pow_pos (q_pos A) k
lemma qp_le (A : Arith) (k : ℕ) : (1 - A.u) ^ k ≤ 1 := pow_le_one₀ (q_pos A).le (q_le A)
lemma qp_anti (A : Arith) {k l : ℕ} (h : k ≤ l) : (1 - A.u) ^ l ≤ (1 - A.u) ^ k :=
  pow_le_pow_of_le_one (q_pos A).le (q_le A) h
lemma G_ge (A : Arith) : 1 ≤ 1 / (1 - A.u) := by rw [le_div_iff₀ (q_pos A)]; linarith [q_le A]
lemma Gp_ge (A : Arith) (k : ℕ) : 1 ≤ (1 / (1 - A.u)) ^ k := one_le_pow₀ (G_ge A)
lemma one_add_u_le (A : Arith) : 1 + A.u ≤ 1 / (1 - A.u) := by
  rw [le_div_iff₀ (q_pos A)]; nlinarith [A.u_nonneg]

namespace Within'

lemma refl {x : ℝ} (hx : 0 ≤ x) : Within A 0 x x := by simp [Within]

lemma zero (k : ℕ) : Within A k 0 0 := by simp [Within]

lemma nonneg {k : ℕ} {x' x : ℝ} (hx : 0 ≤ x) (h : Within A k x' x) : 0 ≤ x' :=
  le_trans (mul_nonneg hx (qp_pos A k).le) h.1

lemma pos {k : ℕ} {x' x : ℝ} (hx : 0 < x) (h : Within A k x' x) : 0 < x' :=
  lt_of_lt_of_le (mul_pos hx (qp_pos A k)) h.1

lemma mono {k l : ℕ} {x' x : ℝ} (hx : 0 ≤ x) (h : Within A k x' x) (hkl : k ≤ l) : Within A l x' x := by
  have hx' := nonneg hx h
  exact ⟨le_trans (mul_le_mul_of_nonneg_left (qp_anti A hkl) hx) h.1,
    le_trans (mul_le_mul_of_nonneg_left (qp_anti A hkl) hx') h.2⟩

lemma rnd {k : ℕ} {x' x r : ℝ} (hx : 0 ≤ x) (h : Within A k x' x) (hr : r ∈ A.rnd x') : Within A (k + 1) r x := by
  have hx' := nonneg hx h
  have hb := abs_le.mp (A.rel x' r hr)
  rw [abs_of_nonneg hx'] at hb
  have h1 : x' * (1 - A.u) ≤ r := by linarith [hb.1]
  have h2 : r ≤ x' * (1 + A.u) := by linarith [hb.2]
  have hq := q_pos A
  have hk := qp_pos A k
  constructor
  · rw [pow_succ]
    calc x * ((1 - A.u) ^ k * (1 - A.u)) = x * (1 - A.u) ^ k * (1 - A.u) := by ring
      _ ≤ x' * (1 - A.u) := mul_le_mul_of_nonneg_right h.1 hq.le
      _ ≤ r := h1
  · rw [pow_succ]
    have h3 : r * (1 - A.u) ≤ x' := by
      calc r * (1 - A.u) ≤ x' * (1 + A.u) * (1 - A.u) := mul_le_mul_of_nonneg_right h2 hq.le
        _ ≤ x' := by nlinarith [mul_nonneg hx' (sq_nonneg A.u)]
    calc r * ((1 - A.u) ^ k * (1 - A.u)) = r * (1 - A.u) * (1 - A.u) ^ k := by ring
      _ ≤ x' * (1 - A.u) ^ k := mul_le_mul_of_nonneg_right h3 hk.le
      _ ≤ x := h.2

lemma add {k : ℕ} {x' x y' y : ℝ} (h : Within A k x' x) (h' : Within A k y' y) : Within A k (x' + y') (x + y) :=
  ⟨by linarith [h.1, h'.1], by linarith [h.2, h'.2]⟩

lemma mul {k l : ℕ} {x' x y' y : ℝ} (hx : 0 ≤ x) (hy : 0 ≤ y) (h : Within A k x' x) (h' : Within A l y' y) :
    Within A (k + l) (x' * y') (x * y) := by
  have hx' := nonneg hx h
  have hy' := nonneg hy h'
  constructor
  · calc x * y * (1 - A.u) ^ (k + l) = (x * (1 - A.u) ^ k) * (y * (1 - A.u) ^ l) := by rw [pow_add]; ring
      _ ≤ x' * y' := mul_le_mul h.1 h'.1 (mul_nonneg hy (qp_pos A l).le) hx'
  · calc x' * y' * (1 - A.u) ^ (k + l) = (x' * (1 - A.u) ^ k) * (y' * (1 - A.u) ^ l) := by rw [pow_add]; ring
      _ ≤ x * y := mul_le_mul h.2 h'.2 (mul_nonneg hy' (qp_pos A l).le) hx

lemma inv {k : ℕ} {y' y : ℝ} (hy : 0 ≤ y) (h : Within A k y' y) : Within A k y'⁻¹ y⁻¹ := by
  rcases hy.eq_or_lt with hy0 | hy0
  · subst hy0
    have h1 := nonneg le_rfl h
    have h2 : y' * (1 - A.u) ^ k ≤ 0 := h.2
    have : y' = 0 := by
      by_contra hne
      have : 0 < y' := lt_of_le_of_ne h1 (Ne.symm hne)
      linarith [mul_pos this (qp_pos A k)]
    rw [this, inv_zero]; exact zero k
  · have hy' := pos hy0 h
    constructor
    · rw [inv_mul_le_iff₀ hy0, ← div_eq_mul_inv, le_div_iff₀ hy']
      linarith [h.2]
    · rw [inv_mul_le_iff₀ hy', ← div_eq_mul_inv, le_div_iff₀ hy0]
      linarith [h.1]

lemma div {k l : ℕ} {x' x y' y : ℝ} (hx : 0 ≤ x) (hy : 0 ≤ y) (h : Within A k x' x) (h' : Within A l y' y) :
    Within A (k + l) (x' / y') (x / y) := by
  rw [div_eq_mul_inv, div_eq_mul_inv]; exact mul hx (inv_nonneg.mpr hy) h (inv hy h')

lemma mulR {k l : ℕ} {x' x y' y r : ℝ} (hx : 0 ≤ x) (hy : 0 ≤ y) (h : Within A k x' x) (h' : Within A l y' y)
    (hr : r ∈ A.mul x' y') : Within A (k + l + 1) r (x * y) := rnd (mul_nonneg hx hy) (mul hx hy h h') hr

lemma divR {k l : ℕ} {x' x y' y r : ℝ} (hx : 0 ≤ x) (hy : 0 ≤ y) (h : Within A k x' x) (h' : Within A l y' y)
    (hr : r ∈ A.div x' y') : Within A (k + l + 1) r (x / y) := rnd (div_nonneg hx hy) (div hx hy h h') hr

lemma addR {k l : ℕ} {x' x y' y r : ℝ} (hx : 0 ≤ x) (hy : 0 ≤ y) (h : Within A k x' x) (h' : Within A l y' y)
    (hr : r ∈ A.add x' y') : Within A (max k l + 1) r (x + y) :=
  rnd (add_nonneg hx hy) (add (mono hx h (le_max_left _ _)) (mono hy h' (le_max_right _ _))) hr

lemma subR {a b r : ℝ} (h : a ≤ b) (hr : r ∈ A.sub b a) : Within A 1 r (b - a) :=
  rnd (sub_nonneg.mpr h) (refl (sub_nonneg.mpr h)) hr

lemma rndR {x r : ℝ} (hx : 0 ≤ x) (hr : r ∈ A.rnd x) : Within A 1 r x := rnd hx (refl hx) hr

end Within'

/-! ### sums -/

lemma tree_sum {ι : Type*} [DecidableEq ι] [Fintype ι] (t : SumTree ι) (f : ι → ℝ) :
    ∑ i, (t.count i : ℝ) * f i = match t with
      | .zero => 0 | .leaf i => f i | .node l r => (∑ i, (l.count i : ℝ) * f i) + ∑ i, (r.count i : ℝ) * f i := by
  cases t with
  | zero => simp [SumTree.count]
  | leaf i => simp [SumTree.count]
  | node l r => simp only [SumTree.count, Nat.cast_add, add_mul, Finset.sum_add_distrib]

lemma tree_within {ι : Type*} [DecidableEq ι] [Fintype ι] {k : ℕ} {f f' : ι → ℝ} (hf : ∀ i, 0 ≤ f i)
    (h : ∀ i, Within A k (f' i) (f i)) (t : SumTree ι) : ∀ s ∈ t.eval A f',
    Within A (k + t.depth) s (∑ i, (t.count i : ℝ) * f i) := by
  induction t with
  | zero => intro s hs; rw [tree_sum]; simp only [SumTree.eval, Set.mem_singleton_iff] at hs; subst hs; exact Within'.zero _
  | leaf i =>
    intro s hs; rw [tree_sum]; simp only [SumTree.eval, Set.mem_singleton_iff] at hs; subst hs; exact h i
  | node l r ihl ihr =>
    intro s hs
    rw [tree_sum]
    obtain ⟨a, ha, b, hb, hs⟩ := hs
    have nn : ∀ t : SumTree ι, 0 ≤ ∑ i, (t.count i : ℝ) * f i := fun t =>
      Finset.sum_nonneg fun i _ => mul_nonneg (Nat.cast_nonneg _) (hf i)
    have := Within'.addR (nn l) (nn r) (ihl a ha) (ihr b hb) hs
    refine Within'.mono (add_nonneg (nn l) (nn r)) this ?_
    simp only [SumTree.depth]; omega

lemma sum_within {ι : Type*} [DecidableEq ι] [Fintype ι] {k d : ℕ} {f f' : ι → ℝ} (hf : ∀ i, 0 ≤ f i)
    (h : ∀ i, Within A k (f' i) (f i)) {s : ℝ} (hs : s ∈ A.sum d f') : Within A (k + d) s (∑ i, f i) := by
  obtain ⟨t, ht, hd, hs⟩ := hs
  have := tree_within hf h t s hs
  have hc : ∀ i, (t.count i : ℝ) = 1 := fun i => by rw [ht i, Nat.cast_one]
  simp only [hc, one_mul] at this
  exact Within'.mono (Finset.sum_nonneg fun i _ => hf i) this (by omega)

/-! ### absolute errors -/
namespace Near

lemma M_nonneg {k : ℕ} {x' x M : ℝ} (h : Near A k x' x M) : 0 ≤ M := le_trans (abs_nonneg _) h.1

lemma mono {k l : ℕ} {x' x M : ℝ} (h : Near A k x' x M) (hkl : k ≤ l) : Near A l x' x M :=
  ⟨h.1, h.2.trans (mul_le_mul_of_nonneg_right (by linarith [pow_le_pow_right₀ (G_ge A) hkl]) h.M_nonneg)⟩

lemma mono_M {k : ℕ} {x' x M M' : ℝ} (h : Near A k x' x M) (hM : M ≤ M') : Near A k x' x M' :=
  ⟨h.1.trans hM, h.2.trans (mul_le_mul_of_nonneg_left hM (by linarith [Gp_ge A k]))⟩

lemma refl {x M : ℝ} (h : |x| ≤ M) : Near A 0 x x M := ⟨h, by simp⟩

lemma rnd {k : ℕ} {x' x M r : ℝ} (h : Near A k x' x M) (hr : r ∈ A.rnd x') : Near A (k + 1) r x M := by
  refine ⟨h.1, ?_⟩
  have hM := h.M_nonneg
  have h1 := A.rel x' r hr
  have h2 : |x'| ≤ |x' - x| + |x| := by have := abs_add_le (x' - x) x; simpa using this
  have h3 : |r - x| ≤ |r - x'| + |x' - x| := abs_sub_le _ _ _
  have h4 : |x'| ≤ (1 / (1 - A.u)) ^ k * M := by linarith [h.1, h.2]
  have h5 := mul_le_mul_of_nonneg_left h4 A.u_nonneg
  have h6 : (1 + A.u) * ((1 / (1 - A.u)) ^ k * M) ≤ (1 / (1 - A.u)) * ((1 / (1 - A.u)) ^ k * M) :=
    mul_le_mul_of_nonneg_right (one_add_u_le A) (mul_nonneg (by linarith [Gp_ge A k]) hM)
  rw [pow_succ]
  nlinarith [h.2]

lemma add {k : ℕ} {x' x M y' y N : ℝ} (h : Near A k x' x M) (h' : Near A k y' y N) :
    Near A k (x' + y') (x + y) (M + N) := by
  refine ⟨(abs_add_le _ _).trans (add_le_add h.1 h'.1), ?_⟩
  have : x' + y' - (x + y) = (x' - x) + (y' - y) := by ring
  rw [this]
  linarith [abs_add_le (x' - x) (y' - y), h.2, h'.2]

lemma mul {k l : ℕ} {x' x M y' y N : ℝ} (h : Near A k x' x M) (h' : Near A l y' y N) :
    Near A (k + l) (x' * y') (x * y) (M * N) := by
  have hM := h.M_nonneg
  have hN := h'.M_nonneg
  refine ⟨by rw [abs_mul]; exact mul_le_mul h.1 h'.1 (abs_nonneg _) hM, ?_⟩
  have e : x' * y' - x * y = (x' - x) * (y' - y) + (x' - x) * y + x * (y' - y) := by ring
  have t : |x' * y' - x * y| ≤ |x' - x| * |y' - y| + |x' - x| * |y| + |x| * |y' - y| := by
    rw [e, ← abs_mul, ← abs_mul, ← abs_mul]
    exact (abs_add_le _ _).trans (by gcongr; exact abs_add_le _ _)
  have g1 : 0 ≤ ((1 / (1 - A.u)) ^ k - 1) * M := mul_nonneg (by linarith [Gp_ge A k]) hM
  have g2 : 0 ≤ ((1 / (1 - A.u)) ^ l - 1) * N := mul_nonneg (by linarith [Gp_ge A l]) hN
  have t1 := mul_le_mul h.2 h'.2 (abs_nonneg _) g1
  have t2 := mul_le_mul h.2 h'.1 (abs_nonneg _) g1
  have t3 := mul_le_mul h.1 h'.2 (abs_nonneg _) hM
  rw [pow_add]
  nlinarith

lemma mulR {k l : ℕ} {x' x M y' y N r : ℝ} (h : Near A k x' x M) (h' : Near A l y' y N) (hr : r ∈ A.mul x' y') :
    Near A (k + l + 1) r (x * y) (M * N) := (h.mul h').rnd hr

lemma addR {k l : ℕ} {x' x M y' y N r : ℝ} (h : Near A k x' x M) (h' : Near A l y' y N) (hr : r ∈ A.add x' y') :
    Near A (max k l + 1) r (x + y) (M + N) :=
  ((h.mono (le_max_left _ _)).add (h'.mono (le_max_right _ _))).rnd hr

lemma of_within {k : ℕ} {x' x : ℝ} (hx : 0 ≤ x) (h : Within A k x' x) : Near A k x' x x := by
  refine ⟨(abs_of_nonneg hx).le, ?_⟩
  have hq := qp_pos A k
  have e : (1 / (1 - A.u)) ^ k = 1 / (1 - A.u) ^ k := by rw [one_div, one_div, inv_pow]
  rw [e, abs_le]
  have h2 : x' ≤ x * (1 / (1 - A.u) ^ k) := by rw [mul_one_div, le_div_iff₀ hq]; exact h.2
  have h3 : 1 - (1 - A.u) ^ k ≤ 1 / (1 - A.u) ^ k - 1 := by
    have := qp_le A k
    rw [le_sub_iff_add_le, le_div_iff₀ hq]
    nlinarith [sq_nonneg (1 - (1 - A.u) ^ k)]
  constructor
  · have := mul_le_mul_of_nonneg_right h3 hx
    linarith [h.1]
  · linarith

lemma divR {k l : ℕ} {x' x M y' y r : ℝ} (h : Near A k x' x M) (hy : 0 ≤ y) (h' : Within A l y' y) (hr : r ∈ A.div x' y') :
    Near A (k + l + 1) r (x / y) (M / y) := by
  have := h.mul (of_within (inv_nonneg.mpr hy) (Within'.inv hy h'))
  rw [← div_eq_mul_inv, ← div_eq_mul_inv, ← div_eq_mul_inv] at this
  exact this.rnd hr

lemma subR {a b M r : ℝ} (h : |b - a| ≤ M) (hr : r ∈ A.sub b a) : Near A 1 r (b - a) M := (refl h).rnd hr

end Near

lemma tree_near {ι : Type*} [DecidableEq ι] [Fintype ι] {k : ℕ} {f f' M : ι → ℝ}
    (h : ∀ i, Near A k (f' i) (f i) (M i)) (t : SumTree ι) : ∀ s ∈ t.eval A f',
    Near A (k + t.depth) s (∑ i, (t.count i : ℝ) * f i) (∑ i, (t.count i : ℝ) * M i) := by
  induction t with
  | zero =>
    intro s hs; rw [tree_sum, tree_sum]; simp only [SumTree.eval, Set.mem_singleton_iff] at hs; subst hs
    simp [Near]
  | leaf i =>
    intro s hs; rw [tree_sum, tree_sum]; simp only [SumTree.eval, Set.mem_singleton_iff] at hs; subst hs; exact h i
  | node l r ihl ihr =>
    intro s hs
    rw [tree_sum, tree_sum]
    obtain ⟨a, ha, b, hb, hs⟩ := hs
    refine ((ihl a ha).addR (ihr b hb) hs).mono ?_
    simp only [SumTree.depth]; omega

lemma sum_near {ι : Type*} [DecidableEq ι] [Fintype ι] {k d : ℕ} {f f' M : ι → ℝ}
    (h : ∀ i, Near A k (f' i) (f i) (M i)) {s : ℝ} (hs : s ∈ A.sum d f') :
    Near A (k + d) s (∑ i, f i) (∑ i, M i) := by
  obtain ⟨t, ht, hd, hs⟩ := hs
  have := tree_near h t s hs
  have hc : ∀ i, (t.count i : ℝ) = 1 := fun i => by rw [ht i, Nat.cast_one]
  simp only [hc, one_mul] at this
  exact this.mono (by omega)

/-! ### non-emptiness -/

/-- relabel the elements -/
def treeMap {ι κ : Type*} (g : ι → κ) : SumTree ι → SumTree κ
  | .zero => .zero
  | .leaf i => .leaf (g i)
  | .node l r => .node (treeMap g l) (treeMap g r)

lemma treeMap_depth {ι κ : Type*} (g : ι → κ) (t : SumTree ι) : (treeMap g t).depth = t.depth := by
  induction t <;> simp_all [treeMap, SumTree.depth]

lemma treeMap_count {ι κ : Type*} [DecidableEq ι] [DecidableEq κ] (g : ι → κ) (hg : Function.Injective g) (t : SumTree ι)
    (i : ι) : (treeMap g t).count (g i) = t.count i := by
  induction t with
  | zero => rfl
  | leaf j => simp [treeMap, SumTree.count, hg.eq_iff]
  | node l r ihl ihr => simp [treeMap, SumTree.count, ihl, ihr]

lemma treeMap_count_ne {ι κ : Type*} [DecidableEq κ] (g : ι → κ) (t : SumTree ι)
    (i : κ) (hi : ∀ j, g j ≠ i) : (treeMap g t).count i = 0 := by
  induction t with
  | zero => rfl
  | leaf j => simp [treeMap, SumTree.count, hi]
  | node l r ihl ihr => simp [treeMap, SumTree.count, ihl, ihr]

/-- sequential summation from the accumulator 0 -/
def seqTree : (n : ℕ) → SumTree (Fin n)
  | 0 => .zero
  | n + 1 => .node (treeMap Fin.castSucc (seqTree n)) (.leaf (Fin.last n))

lemma seqTree_spec (n : ℕ) : (seqTree n).IsReduction ∧ (seqTree n).depth = n := by
  induction n with
  | zero => exact ⟨fun i => i.elim0, rfl⟩
  | succ n ih =>
    refine ⟨fun i => ?_, ?_⟩
    · refine Fin.lastCases ?_ (fun j => ?_) i
      · simp only [seqTree, SumTree.count]
        rw [treeMap_count_ne]
        · simp
        · intro j; exact (Fin.castSucc_lt_last j).ne
      · simp only [seqTree, SumTree.count]
        rw [treeMap_count _ (Fin.castSucc_injective n), ih.1 j]
        simp [(Fin.castSucc_lt_last j).ne']
    · simp [seqTree, SumTree.depth, treeMap_depth, ih.2]

lemma eval_nonempty (hA : ∀ x, (A.rnd x).Nonempty) {ι : Type*} (f : ι → ℝ) (t : SumTree ι) : (t.eval A f).Nonempty := by
  induction t with
  | zero => exact ⟨0, rfl⟩
  | leaf i => exact ⟨f i, rfl⟩
  | node l r ihl ihr =>
    obtain ⟨a, ha⟩ := ihl
    obtain ⟨b, hb⟩ := ihr
    obtain ⟨s, hs⟩ := hA (a + b)
    exact ⟨s, a, ha, b, hb, hs⟩

/-- Summation over any finite index type is possible with chains as long as the number of elements. -/
lemma sum_nonempty (hA : ∀ x, (A.rnd x).Nonempty) {ι : Type*} [DecidableEq ι] [Fintype ι] (f : ι → ℝ) {d : ℕ}
    (hd : Fintype.card ι ≤ d) : (A.sum d f).Nonempty := by
  let e := (Fintype.equivFin ι).symm
  obtain ⟨s, hs⟩ := eval_nonempty hA f (treeMap e (seqTree (Fintype.card ι)))
  refine ⟨s, treeMap e (seqTree (Fintype.card ι)), fun i => ?_, ?_, hs⟩
  · obtain ⟨j, rfl⟩ := e.surjective i
    rw [treeMap_count _ e.injective]; exact (seqTree_spec _).1 j
  · rw [treeMap_depth, (seqTree_spec _).2]; exact hd

lemma vec_nonempty {ι : Type*} {f : ι → Set ℝ} (h : ∀ i, (f i).Nonempty) : (vec f).Nonempty :=
  ⟨fun i => (h i).some, fun i => (h i).some_mem⟩

end Dsps.Lemmas

namespace Dsps.Lemmas
open Fl Jnp

variable {A : Arith} {n m : ℕ}

/-- one step of the machine `cumtrapz` -/
def stepSet (A : Arith) (a fa b fb c : ℝ) : Set ℝ :=
  {r | ∃ dx ∈ A.sub b a, ∃ s ∈ A.add fb fa, ∃ p ∈ A.mul dx s, ∃ h ∈ A.div p 2.0, r ∈ A.add c h}

lemma scan_zero (c : ℝ × ℝ × ℝ) (x y : Fin (n + 1) → ℝ) {o}
    (h : o ∈ Fl.scan (Rounded.cumtrapz_scan_func A) c fun i => (x i, y i)) :
    o.2 0 ∈ stepSet A c.1 c.2.1 (x 0) (y 0) c.2.2 := by
  simp only [Fl.scan, Set.mem_setOf_eq] at h
  obtain ⟨r, hr, rest, _, rfl⟩ := h
  simp only [Fin.cons_zero]
  obtain ⟨dx, h1, s, h2, p, h3, q, h4, cc, h5, rfl⟩ := hr
  exact ⟨dx, h1, s, h2, p, h3, q, h4, h5⟩

lemma scan_succ (c : ℝ × ℝ × ℝ) (x y : Fin (n + 1) → ℝ) {o}
    (h : o ∈ Fl.scan (Rounded.cumtrapz_scan_func A) c fun i => (x i, y i)) (k : Fin n) :
    o.2 k.succ ∈ stepSet A (x k.castSucc) (y k.castSucc) (x k.succ) (y k.succ) (o.2 k.castSucc) := by
  induction n generalizing c with
  | zero => exact k.elim0
  | succ n ih =>
    rw [Fl.scan] at h
    obtain ⟨r, hr, rest, hrest, rfl⟩ := h
    simp only [Fin.cons_succ]
    refine Fin.cases ?_ (fun j => ?_) k
    · have := scan_zero _ (fun i => x i.succ) (fun i => y i.succ) hrest
      rw [Fin.castSucc_zero, Fin.cons_zero]
      obtain ⟨dx, h1, s, h2, p, h3, q, h4, cc, h5, rfl⟩ := hr
      exact this
    · rw [← Fin.succ_castSucc, Fin.cons_succ]
      have := ih _ (fun i => x i.succ) (fun i => y i.succ) hrest j
      exact this

lemma cumtrapz_steps {x y c : Fin (n + 1) → ℝ} (h : c ∈ Rounded.cumtrapz A x y) :
    c 0 ∈ stepSet A (x 0) (y 0) (x 0) (y 0) 0 ∧
    ∀ k : Fin n, c k.succ ∈ stepSet A (x k.castSucc) (y k.castSucc) (x k.succ) (y k.succ) (c k.castSucc) := by
  obtain ⟨carry, h⟩ := h
  exact ⟨scan_zero (A := A) (x 0, y 0, 0) x y h, fun k => scan_succ (A := A) (x 0, y 0, 0) x y h k⟩

lemma rnd_zero {r : ℝ} (h : r ∈ A.rnd 0) : r = 0 := by
  have := A.rel 0 r h; simpa using this

lemma step_within {kx ky k : ℕ} {a a' fa' fa fb b c' c r : ℝ} (hab : a' ≤ b) (hab0 : a ≤ b)
    (hx : Within A kx (b - a') (b - a)) (hfa0 : 0 ≤ fa) (hfa : Within A ky fa' fa) (hfb : 0 ≤ fb) (hc0 : 0 ≤ c)
    (hc : Within A k c' c) (hk : kx + ky + 4 ≤ k) (hr : r ∈ stepSet A a' fa' b fb c') :
    Within A (k + 1) r (c + (b - a) * (fb + fa) / 2) := by
  obtain ⟨dx, h1, s, h2, p, h3, q, h4, h5⟩ := hr
  have hba : 0 ≤ b - a := sub_nonneg.mpr hab0
  have w1 := Within'.rnd hba hx h1
  have w2 := Within'.addR hfb hfa0 (Within'.refl hfb) hfa h2
  have w3 := Within'.mulR hba (add_nonneg hfb hfa0) w1 w2 h3
  have two : (2.0 : ℝ) = 2 := by norm_num
  rw [two] at h4
  have w4 := Within'.divR (mul_nonneg hba (add_nonneg hfb hfa0)) zero_le_two w3 (Within'.refl zero_le_two) h4
  have hnn : 0 ≤ (b - a) * (fb + fa) / 2 := div_nonneg (mul_nonneg hba (add_nonneg hfb hfa0)) zero_le_two
  have w5 := Within'.addR hc0 hnn hc w4 h5
  refine Within'.mono (add_nonneg hc0 hnn) w5 ?_
  simp only [Nat.zero_max] at *
  omega

lemma step_nonneg {a fa b fb c r : ℝ} (hab : a ≤ b) (hfa : 0 ≤ fa) (hfb : 0 ≤ fb) 
    (hr : r ∈ stepSet A a fa b fb c) : ∃ h, 0 ≤ h ∧ r ∈ A.rnd (c + h) := by
  obtain ⟨dx, h1, s, h2, p, h3, q, h4, h5⟩ := hr
  have hba : 0 ≤ b - a := sub_nonneg.mpr hab
  have w1 := Within'.subR hab h1
  have w2 := Within'.addR hfb hfa (Within'.refl hfb) (Within'.refl hfa) h2
  have w3 := Within'.mulR hba (add_nonneg hfb hfa) w1 w2 h3
  have two : (2.0 : ℝ) = 2 := by norm_num
  rw [two] at h4
  have w4 := Within'.divR (mul_nonneg hba (add_nonneg hfb hfa)) zero_le_two w3 (Within'.refl zero_le_two) h4
  exact ⟨q, Within'.nonneg (div_nonneg (mul_nonneg hba (add_nonneg hfb hfa)) zero_le_two) w4, h5⟩

end Dsps.Lemmas

namespace Dsps.Lemmas
open Fl Jnp

variable {A : Arith} {n m w : ℕ}

lemma binop_nonempty (hA : ∀ x, (A.rnd x).Nonempty) (a b : ℝ) :
    (A.add a b).Nonempty ∧ (A.sub a b).Nonempty ∧ (A.mul a b).Nonempty ∧ (A.div a b).Nonempty :=
  ⟨hA _, hA _, hA _, hA _⟩

lemma scan_nonempty {σ β γ : Type*} {f : σ → β → Set (σ × γ)} (hf : ∀ s b, (f s b).Nonempty) (s : σ) (xs : Fin n → β) :
    (Fl.scan f s xs).Nonempty := by
  induction n generalizing s with
  | zero => exact ⟨_, rfl⟩
  | succ n ih =>
    obtain ⟨r, hr⟩ := hf s (xs 0)
    obtain ⟨rest, hrest⟩ := ih r.1 (fun i => xs i.succ)
    exact ⟨_, r, hr, rest, hrest, rfl⟩

lemma mstar_nonempty (hA : ∀ x, (A.rnd x).Nonempty) (t s : Fin n → ℝ) :
    (Rounded.cumulative_mstar_formed A t s).Nonempty := by
  have hf : ∀ (c : ℝ × ℝ × ℝ) (e : ℝ × ℝ), (Rounded.cumtrapz_scan_func A c e).Nonempty := by
    intro c e
    exact ⟨_, _, (hA _).some_mem, _, (hA _).some_mem, _, (hA _).some_mem, _, (hA _).some_mem, _, (hA _).some_mem, rfl⟩
  refine ⟨_, _, (hA _).some_mem, _, (hA _).some_mem, _, ⟨_, (scan_nonempty hf _ _).some_mem⟩,
    (vec_nonempty fun i => hA _).some_mem⟩

lemma normalize_nonempty (hA : ∀ x, (A.rnd x).Nonempty) {ι : Type*} [DecidableEq ι] [Fintype ι] (x : ι → ℝ) {d : ℕ}
    (hd : Fintype.card ι ≤ d) : (Rounded.normalize A d x).Nonempty := by
  exact ⟨_, _, (sum_nonempty hA x hd).some_mem, (vec_nonempty fun i => hA _).some_mem⟩

lemma ssp_weights_nonempty (hA : ∀ x, (A.rnd x).Nonempty) (lg : Fin m → Fin n → ℝ) (age : Fin n → ℝ) {d : ℕ}
    (hd : m * n ≤ d) : (Rounded.ssp_weights A d lg age).Nonempty := by
  exact ⟨_, _, (vec_nonempty fun ij => hA _).some_mem, (normalize_nonempty hA _ (d := d) (by simpa using hd)).some_mem⟩

lemma rest_sed_nonempty (hA : ∀ x, (A.rnd x).Nonempty) (f : Fin m → Fin n → Fin w → ℝ) (wt : Fin m × Fin n → ℝ) (M : ℝ)
    {d : ℕ} (hd : m * n ≤ d) : (Rounded.rest_sed A d f wt M).Nonempty := by
  have hs : ∀ g : Fin m × Fin n → ℝ, (A.sum d g).Nonempty := fun g => sum_nonempty hA _ (by simpa using hd)
  exact ⟨_, _, (vec_nonempty fun lij => hA _).some_mem, fun l => (hs _).some, fun l => (hs _).some_mem,
    (vec_nonempty fun l => hA _).some_mem⟩

lemma trapezoid_nonempty (hA : ∀ x, (A.rnd x).Nonempty) (y x : Fin (n + 1) → ℝ) {d : ℕ} (hd : n ≤ d) :
    (Rounded.trapezoid A d y x).Nonempty := by
  obtain ⟨dx, h1⟩ := vec_nonempty (fun i : Fin n => hA (tail x i - init x i))
  obtain ⟨s, h2⟩ := vec_nonempty (fun i : Fin n => hA (tail y i + init y i))
  obtain ⟨p, h3⟩ := vec_nonempty (fun i : Fin n => hA (dx i * s i))
  obtain ⟨t, h4⟩ := sum_nonempty hA p (d := d) (by simpa using hd)
  obtain ⟨o, h5⟩ := hA (0.5 * t)
  exact ⟨o, dx, h1, s, h2, p, h3, t, h4, h5⟩

lemma filter_flux_nonempty (hA : ∀ x, (A.rnd x).Nonempty) (wv tr lum : Fin (m + 1) → ℝ) {d : ℕ} (hd : m ≤ d) :
    (Rounded.filter_flux A d wv tr lum).Nonempty := by
  obtain ⟨a, h1⟩ := vec_nonempty (fun i => hA (tr i * lum i))
  obtain ⟨b, h2⟩ := vec_nonempty (fun i => hA (a i / wv i))
  obtain ⟨o, h3⟩ := trapezoid_nonempty hA b wv hd
  exact ⟨o, a, h1, b, h2, h3⟩

lemma rest_flux_of_lum_nonempty (hA : ∀ x, (A.rnd x).Nonempty) (wv tr lum : Fin (m + 1) → ℝ) {d : ℕ} (hd : m ≤ d) :
    (Rounded.calc_rest_flux_of_lum A d wv tr lum).Nonempty := by
  obtain ⟨a, h1⟩ := filter_flux_nonempty hA wv tr lum hd
  exact ⟨_, a, h1, _, ⟨_, (hA _).some_mem, (filter_flux_nonempty hA wv tr (fun _ => _) hd).some_mem⟩, (hA _).some_mem⟩

lemma interp0_nonempty [Dtype] (hA : ∀ x, (A.rnd x).Nonempty) (x : ℝ) (xp fp : Fin (n + 2) → ℝ) :
    (Rounded.interp0 A x xp fp).Nonempty := by
  by_cases h1 : x > last xp
  · exact ⟨0, Or.inl ⟨h1, rfl⟩⟩
  by_cases h2 : x < xp 0
  · exact ⟨0, Or.inr (Or.inl ⟨h1, h2, rfl⟩)⟩
  obtain ⟨df, e1⟩ := hA (fp (interpCell xp x).succ - fp (interpCell xp x).castSucc)
  obtain ⟨dx, e2⟩ := hA (xp (interpCell xp x).succ - xp (interpCell xp x).castSucc)
  obtain ⟨dl, e3⟩ := hA (x - xp (interpCell xp x).castSucc)
  by_cases h3 : |dx| ≤ Dtype.interpEps
  · exact ⟨_, Or.inr (Or.inr ⟨h1, h2, df, e1, dx, e2, dl, e3, Or.inl ⟨h3, rfl⟩⟩)⟩
  · obtain ⟨q, e4⟩ := hA (dl / dx)
    obtain ⟨p, e5⟩ := hA (q * df)
    obtain ⟨o, e6⟩ := hA (fp (interpCell xp x).castSucc + p)
    exact ⟨o, Or.inr (Or.inr ⟨h1, h2, df, e1, dx, e2, dl, e3, Or.inr ⟨h3, q, e4, p, e5, e6⟩⟩)⟩

lemma rest_flux_nonempty [Dtype] (hA : ∀ x, (A.rnd x).Nonempty) (ws ls : Fin (n + 2) → ℝ) (wv tr : Fin (m + 1) → ℝ) {d : ℕ}
    (hd : m ≤ d) : (Rounded.calc_rest_flux A d ws ls wv tr).Nonempty := by
  obtain ⟨l, h1⟩ := vec_nonempty (fun i => interp0_nonempty hA (wv i) ws ls)
  obtain ⟨o, h2⟩ := rest_flux_of_lum_nonempty hA wv tr l hd
  exact ⟨o, l, h1, h2⟩

/-! ### trapezoid -/

lemma trapezoid_within {k d : ℕ} {x y y' : Fin (n + 1) → ℝ} (hx : Monotone x) (hy : ∀ i, 0 ≤ y i)
    (h : ∀ i, Within A k (y' i) (y i)) {r : ℝ} (hr : r ∈ Rounded.trapezoid A d y' x) :
    Within A (k + d + 4) r (Jnp.trapezoid y x) := by
  obtain ⟨dx, h1, s, h2, p, h3, t, h4, h5⟩ := hr
  have hd : ∀ i : Fin n, 0 ≤ Jnp.diff x i := fun i => sub_nonneg.mpr (hx (Fin.castSucc_lt_succ (i := i)).le)
  have hs : ∀ i : Fin n, 0 ≤ tail y i + init y i := fun i => add_nonneg (hy _) (hy _)
  have hp : ∀ i, Within A (k + 3) (p i) (Jnp.diff x i * (tail y i + init y i)) := by
    intro i
    have w1 := Within'.rndR (hd i) (h1 i)
    have w2 := Within'.addR (hy i.succ) (hy i.castSucc) (h i.succ) (h i.castSucc) (h2 i)
    have w3 := Within'.mulR (hd i) (hs i) w1 w2 (h3 i)
    refine Within'.mono (mul_nonneg (hd i) (hs i)) w3 ?_
    rw [max_self]; omega
  have w4 := sum_within (fun i => mul_nonneg (hd i) (hs i)) hp h4
  have h05 : (0:ℝ) ≤ 0.5 := by norm_num
  have w5 := Within'.mulR h05 (Finset.sum_nonneg fun i _ => mul_nonneg (hd i) (hs i)) (Within'.refl h05) w4 h5
  refine Within'.mono (mul_nonneg h05 (Finset.sum_nonneg fun i _ => mul_nonneg (hd i) (hs i))) w5 ?_
  omega

lemma trapezoid_near {k d : ℕ} {x y y' M : Fin (n + 1) → ℝ} (hx : Monotone x)
    (h : ∀ i, Near A k (y' i) (y i) (M i)) {r : ℝ} (hr : r ∈ Rounded.trapezoid A d y' x) :
    Near A (k + d + 4) r (Jnp.trapezoid y x) (Jnp.trapezoid M x) := by
  obtain ⟨dx, h1, s, h2, p, h3, t, h4, h5⟩ := hr
  have hd : ∀ i : Fin n, 0 ≤ Jnp.diff x i := fun i => sub_nonneg.mpr (hx (Fin.castSucc_lt_succ (i := i)).le)
  have hp : ∀ i, Near A (k + 3) (p i) (Jnp.diff x i * (tail y i + init y i)) (Jnp.diff x i * (tail M i + init M i)) := by
    intro i
    have w1 := Near.of_within (hd i) (Within'.rndR (hd i) (h1 i))
    have w2 := (h i.succ).addR (h i.castSucc) (h2 i)
    have w3 := w1.mulR w2 (h3 i)
    refine w3.mono ?_
    rw [max_self]; omega
  have w4 := sum_near hp h4
  have h05 : (0:ℝ) ≤ 0.5 := by norm_num
  have w5 := (Near.of_within (A := A) h05 (Within'.refl h05)).mulR w4 h5
  exact w5.mono (by omega)

lemma filter_flux_within {k d : ℕ} {wv tr lum lum' : Fin (m + 1) → ℝ} (hw : Monotone wv) (hw0 : ∀ i, 0 < wv i)
    (ht : ∀ i, 0 ≤ tr i) (hl : ∀ i, 0 ≤ lum i) (h : ∀ i, Within A k (lum' i) (lum i)) {r : ℝ}
    (hr : r ∈ Rounded.filter_flux A d wv tr lum') :
    Within A (k + d + 6) r (Utils.trapz wv fun i => tr i * lum i / wv i) := by
  obtain ⟨a, h1, b, h2, h3⟩ := hr
  have hb : ∀ i, Within A (k + 2) (b i) (tr i * lum i / wv i) := by
    intro i
    have w1 := Within'.mulR (ht i) (hl i) (Within'.refl (ht i)) (h i) (h1 i)
    have w2 := Within'.divR (mul_nonneg (ht i) (hl i)) (hw0 i).le w1 (Within'.refl (hw0 i).le) (h2 i)
    refine Within'.mono (div_nonneg (mul_nonneg (ht i) (hl i)) (hw0 i).le) w2 (by omega)
  have hnn : ∀ i, 0 ≤ tr i * lum i / wv i := fun i => div_nonneg (mul_nonneg (ht i) (hl i)) (hw0 i).le
  have := trapezoid_within hw hnn hb h3
  have e : k + 2 + d + 4 = k + d + 6 := by omega
  rw [e] at this; exact this

lemma filter_flux_near {k d : ℕ} {wv tr lum lum' M : Fin (m + 1) → ℝ} (hw : Monotone wv) (hw0 : ∀ i, 0 < wv i)
    (ht : ∀ i, 0 ≤ tr i) (h : ∀ i, Near A k (lum' i) (lum i) (M i)) {r : ℝ}
    (hr : r ∈ Rounded.filter_flux A d wv tr lum') :
    Near A (k + d + 6) r (Utils.trapz wv fun i => tr i * lum i / wv i) (Utils.trapz wv fun i => tr i * M i / wv i) := by
  obtain ⟨a, h1, b, h2, h3⟩ := hr
  have hb : ∀ i, Near A (k + 2) (b i) (tr i * lum i / wv i) (tr i * M i / wv i) := by
    intro i
    have w1 := (Near.of_within (ht i) (Within'.refl (A := A) (ht i))).mulR (h i) (h1 i)
    have w2 := w1.divR (hw0 i).le (Within'.refl (hw0 i).le) (h2 i)
    exact w2.mono (by omega)
  have := trapezoid_near hw hb h3
  have e : k + 2 + d + 4 = k + d + 6 := by omega
  rw [e] at this; exact this

lemma AB0_pos : 0 < Photometry.AB0 := by rw [Photometry.AB0]; norm_num

lemma flux_ab0_within {d : ℕ} {wv tr : Fin (m + 1) → ℝ} (hw : Monotone wv) (hw0 : ∀ i, 0 < wv i)
    (ht : ∀ i, 0 ≤ tr i) {r : ℝ} (hr : r ∈ Rounded.flux_ab0_at_10pc A d wv tr) :
    Within A (d + 7) r (Photometry.flux_ab0_at_10pc wv tr) := by
  obtain ⟨ab, h1, h2⟩ := hr
  have := filter_flux_within (k := 1) hw hw0 ht (fun _ => AB0_pos.le) (fun _ => Within'.rndR AB0_pos.le h1) h2
  have e : 1 + d + 6 = d + 7 := by omega
  rw [e] at this
  exact this

/-- interpolation inside the table, machine arithmetic -/
lemma interpBody_near [Dtype] {xp fp : Fin (n + 2) → ℝ} {L x r : ℝ} (hx : Monotone xp)
    (hres : ∀ i : Fin (n + 1), Dtype.interpEps < (xp i.succ - xp i.castSucc) * (1 - A.u))
    (hf0 : ∀ i, 0 ≤ fp i) (hfL : ∀ i, fp i ≤ L) (h0 : xp 0 ≤ x) (h1 : x ≤ xp (Fin.last (n + 1)))
    (hr : r ∈ Rounded.interpBody A x xp fp) : Near A 6 r (Jnp.interpBody x xp fp) L := by
  obtain ⟨df, e1, dx, e2, dl, e3, h⟩ := hr
  set i := interpCell xp x with hi
  have hl := interpCell_left hx h0
  have hrr := interpCell_right hx h1
  rw [← hi] at hl hrr
  have hdx0 : 0 < xp i.succ - xp i.castSucc := by
    have := hres i
    have hq := q_pos A
    have he := Dtype.interpEps_nonneg
    by_contra hc
    push Not at hc
    nlinarith
  have wdx := Within'.rndR hdx0.le e2
  have hdxp := Within'.pos hdx0 wdx
  have hguard : ¬ |dx| ≤ Dtype.interpEps := by
    rw [abs_of_pos hdxp]
    have := wdx.1
    rw [pow_one] at this
    linarith [hres i]
  have hguard' : ¬ |xp i.succ - xp i.castSucc| ≤ Dtype.interpEps := by
    rw [abs_of_pos hdx0]
    have := hres i
    have hu := A.u_nonneg
    nlinarith
  rcases h with ⟨hg, _⟩ | ⟨_, q, e4, p, e5, e6⟩
  · exact absurd hg hguard
  have hdl : 0 ≤ x - xp i.castSucc := sub_nonneg.mpr hl
  have wdl := Within'.rndR hdl e3
  have wq := Within'.divR hdl hdx0.le wdl wdx e4
  have hL : 0 ≤ L := (hf0 0).trans (hfL 0)
  have hdf : |fp i.succ - fp i.castSucc| ≤ L := by
    rw [abs_le]; constructor <;> linarith [hf0 i.succ, hf0 i.castSucc, hfL i.succ, hfL i.castSucc]
  have ndf : Near A 1 df (fp i.succ - fp i.castSucc) L := Near.subR hdf e1
  have np := (Near.of_within (div_nonneg hdl hdx0.le) wq).mulR ndf e5
  set t := (x - xp i.castSucc) / (xp i.succ - xp i.castSucc) with ht
  have ht1 : t ≤ 1 := by rw [ht, div_le_one hdx0]; linarith
  have ht0 : 0 ≤ t := div_nonneg hdl hdx0.le
  have np' := np.mono_M (show t * L ≤ L by nlinarith)
  have hval : Jnp.interpBody x xp fp = fp i.castSucc + t * (fp i.succ - fp i.castSucc) := by
    unfold Jnp.interpBody
    simp only [← hi]
    rw [if_neg hguard']
  have hb : |fp i.castSucc + t * (fp i.succ - fp i.castSucc)| ≤ L := by
    have e : fp i.castSucc + t * (fp i.succ - fp i.castSucc) = (1 - t) * fp i.castSucc + t * fp i.succ := by ring
    rw [e, abs_of_nonneg (add_nonneg (mul_nonneg (by linarith) (hf0 _)) (mul_nonneg ht0 (hf0 _)))]
    nlinarith [hfL i.castSucc, hfL i.succ, mul_le_mul_of_nonneg_left (hfL i.castSucc) (show 0 ≤ 1 - t by linarith),
      mul_le_mul_of_nonneg_left (hfL i.succ) ht0]
  rw [hval]
  have n5 : Near A 5 (fp i.castSucc + p) (fp i.castSucc + t * (fp i.succ - fp i.castSucc)) L := by
    refine ⟨hb, ?_⟩
    have : fp i.castSucc + p - (fp i.castSucc + t * (fp i.succ - fp i.castSucc))
        = p - t * (fp i.succ - fp i.castSucc) := by ring
    rw [this]
    exact np'.2
  exact n5.rnd e6

lemma interp0_near [Dtype] {xp fp : Fin (n + 2) → ℝ} {L x r : ℝ} (hx : Monotone xp)
    (hres : ∀ i : Fin (n + 1), Dtype.interpEps < (xp i.succ - xp i.castSucc) * (1 - A.u))
    (hf0 : ∀ i, 0 ≤ fp i) (hfL : ∀ i, fp i ≤ L) (hr : r ∈ Rounded.interp0 A x xp fp) :
    Near A 6 r (interpLR x xp fp 0 0) L := by
  have hL : 0 ≤ L := (hf0 0).trans (hfL 0)
  have hz : Near A 6 0 0 L := (Near.refl (by simpa using hL)).mono (by omega)
  rcases hr with ⟨h, rfl⟩ | ⟨h, h', rfl⟩ | ⟨h, h', hb⟩
  · unfold interpLR; rw [if_pos h]; exact hz
  · unfold interpLR; rw [if_neg h, if_pos h']; exact hz
  · unfold interpLR; rw [if_neg h, if_neg h']
    exact interpBody_near hx hres hf0 hfL (not_lt.mp h') (not_lt.mp h) hb

end Dsps.Lemmas
