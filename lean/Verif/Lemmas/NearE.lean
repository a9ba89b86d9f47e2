import Verif.Lemmas.RoundCosmo
import Verif.Model.RoundedDust

/-! A calculus of absolute errors for sums of terms of either sign: `NearE ε k M x' x` says that `x'` is `x` up to `k` roundings of quantities of
size `M`. -/
namespace Dsps.Lemmas
open Fl

/-- `|x| ≤ M` and `|x' - x| ≤ ((1+ε)^k - 1) M` -/
def NearE (ε : ℝ) (k : ℕ) (M x' x : ℝ) : Prop := |x| ≤ M ∧ |x' - x| ≤ ((1 + ε) ^ k - 1) * M

namespace NearE
variable {ε M N x x' y y' : ℝ} {k l : ℕ} {A P : Arith}

lemma size_nonneg (h : NearE ε k M x' x) : 0 ≤ M := (abs_nonneg _).trans h.1

lemma refl (h : |x| ≤ M) : NearE ε 0 M x x := ⟨h, by simp⟩

lemma mono (hε : 0 ≤ ε) (h : NearE ε k M x' x) (hk : k ≤ l) (hM : M ≤ N) : NearE ε l N x' x := by
  refine ⟨h.1.trans hM, h.2.trans ?_⟩
  have h1 : (1:ℝ) ≤ (1 + ε) ^ k := one_le_pow₀ (by linarith)
  have h2 : (1 + ε) ^ k ≤ (1 + ε) ^ l := pow_le_pow_right₀ (by linarith) hk
  exact mul_le_mul (by linarith) hM h.size_nonneg (by linarith)

lemma abs_le (h : NearE ε k M x' x) : |x'| ≤ (1 + ε) ^ k * M := by
  have := abs_add_le (x' - x) x
  rw [sub_add_cancel] at this
  nlinarith [h.1, h.2]

lemma rnd (hA : A.u ≤ ε) (h : NearE ε k M x' x) {r : ℝ} (hr : r ∈ A.rnd x') : NearE ε (k + 1) M r x := by
  have hε : 0 ≤ ε := A.u_nonneg.trans hA
  refine ⟨h.1, ?_⟩
  have h1 := A.rel _ _ hr
  have h2 : A.u * |x'| ≤ ε * ((1 + ε) ^ k * M) := mul_le_mul hA h.abs_le (abs_nonneg _) hε
  have := abs_add_le (r - x') (x' - x)
  rw [sub_add_sub_cancel] at this
  rw [pow_succ]
  nlinarith [h.2]

lemma add (hε : 0 ≤ ε) (h : NearE ε k M x' x) (h' : NearE ε l N y' y) : NearE ε (max k l) (M + N) (x' + y') (x + y) := by
  have a := h.mono hε (le_max_left k l) le_rfl
  have b := h'.mono hε (le_max_right k l) le_rfl
  refine ⟨(abs_add_le _ _).trans (add_le_add a.1 b.1), ?_⟩
  rw [add_sub_add_comm, mul_add]
  exact (abs_add_le _ _).trans (add_le_add a.2 b.2)

lemma neg (h : NearE ε k M x' x) : NearE ε k M (-x') (-x) := by
  refine ⟨by rw [abs_neg]; exact h.1, ?_⟩
  rw [neg_sub_neg, abs_sub_comm]; exact h.2

lemma sub (hε : 0 ≤ ε) (h : NearE ε k M x' x) (h' : NearE ε l N y' y) : NearE ε (max k l) (M + N) (x' - y') (x - y) := by
  rw [sub_eq_add_neg, sub_eq_add_neg]; exact h.add hε h'.neg

lemma mul (hε : 0 ≤ ε) (h : NearE ε k M x' x) (h' : NearE ε l N y' y) : NearE ε (k + l) (M * N) (x' * y') (x * y) := by
  have hM := h.size_nonneg
  have hN := h'.size_nonneg
  refine ⟨by rw [abs_mul]; exact mul_le_mul h.1 h'.1 (abs_nonneg _) hM, ?_⟩
  have e : x' * y' - x * y = (x' - x) * y' + x * (y' - y) := by ring
  rw [e]
  refine (abs_add_le _ _).trans ?_
  rw [abs_mul, abs_mul]
  have h1 : (1:ℝ) ≤ (1 + ε) ^ k := one_le_pow₀ (by linarith)
  have t1 := mul_le_mul h.2 h'.abs_le (abs_nonneg _) (mul_nonneg (by linarith) hM)
  have t2 := mul_le_mul h.1 h'.2 (abs_nonneg _) hM
  refine (add_le_add t1 t2).trans (le_of_eq ?_)
  rw [pow_add]; ring

lemma intPow (hA : A.u ≤ ε) (h : NearE ε k M x' x) {n : ℕ} {r : ℝ} (hr : Rounded.IntPow A x' n r) :
    1 ≤ n ∧ NearE ε (n * k + (n - 1)) (M ^ n) r (x ^ n) := by
  have hε : 0 ≤ ε := A.u_nonneg.trans hA
  induction hr with
  | one => refine ⟨le_rfl, ?_⟩; simpa using h
  | @mul i j a b r _ _ hr ih1 ih2 =>
    refine ⟨by omega, ?_⟩
    have := (ih1.2.mul hε ih2.2).rnd hA hr
    rw [pow_add, pow_add]
    refine this.mono hε ?_ le_rfl
    have h1 := ih1.1
    have h2 := ih2.1
    rw [add_mul]; omega

lemma of_rnd (hA : A.u ≤ ε) {r : ℝ} (hr : r ∈ A.rnd x) (h : |x| ≤ M) : NearE ε 1 M r x := by
  simpa using (NearE.refl (ε := ε) h).rnd hA hr

lemma lit (hP : P.u ≤ ε) (hA : A.u ≤ ε) {r : ℝ} (hr : r ∈ Rounded.lit P A x) (h : |x| ≤ M) : NearE ε 2 M r x := by
  obtain ⟨p, hp, hr⟩ := hr
  exact (of_rnd hP hp h).rnd hA hr

lemma negLit (hP : P.u ≤ ε) (hA : A.u ≤ ε) {r : ℝ} (hr : r ∈ Rounded.negLit P A x) (h : |x| ≤ M) : NearE ε 2 M r (-x) := by
  obtain ⟨p, hp, hr⟩ := hr
  exact (of_rnd hP hp h).neg.rnd hA hr

/-- the bound in plain form -/
lemma bound (hε : 0 ≤ ε) (h : NearE ε k M x' x) (hk : k * ε ≤ 0.01) : |x' - x| ≤ 1.01 * k * ε * M := by
  refine h.2.trans (mul_le_mul_of_nonneg_right ?_ h.size_nonneg)
  have h1 : (1 + ε) ^ k ≤ Real.exp (k * ε) := by
    rw [Real.exp_nat_mul]
    exact pow_le_pow_left₀ (by linarith) (by linarith [Real.add_one_le_exp ε]) k
  have h0 : 0 ≤ k * ε := by positivity
  have h2 := exp_sub_one_le h0 (hk.trans (by norm_num)) hk
  norm_num at h2 ⊢
  linarith

end NearE
end Dsps.Lemmas
