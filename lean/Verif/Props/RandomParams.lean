import Verif.Model.Umzr
import Verif.Props.Metallicity
import Verif.Props.NonFinite
import Verif.Cases

/-! Property C87: randomly drawn mass-metallicity parameters. -/
namespace Dsps.Props
open Dsps.Umzr

/-- The key chain of `jax.random.split`: the carried key after `i` splits. -/
def carriedKey (R : Jran) (k : R.Key) : ℕ → R.Key
  | 0 => k
  | i + 1 => (R.split (carriedKey R k i)).1

theorem carriedKey_succ (R : Jran) (k : R.Key) (i : ℕ) : carriedKey R k (i + 1) = carriedKey R (R.split k).1 i := by
  induction i with
  | zero => rfl
  | succ i ih => show (R.split (carriedKey R k (i + 1))).1 = _; rw [ih]; rfl

theorem ran_t0_loop_eq (R : Jran) (bs : List (ℝ × ℝ)) (k : R.Key) (acc : List ℝ) :
    ran_t0_loop R k bs acc = acc ++ bs.mapIdx fun i b => R.uniform (R.split (carriedKey R k i)).2 b.1 b.2 := by
  induction bs generalizing k acc with
  | nil => simp [ran_t0_loop]
  | cons b bs ih =>
    rw [ran_t0_loop]
    simp only
    rw [ih, List.mapIdx_cons, List.append_assoc, List.singleton_append]
    congr 2
    refine List.mapIdx_eq_mapIdx_iff.2 fun i hi => ?_
    rw [carriedKey_succ]

/-- C87: one value per bound, in order; the i-th value lies in its own interval `[lo, hi)` and is drawn with the i-th key of the
split chain (so no key is used twice along the chain). -/
theorem C87_random_params (R : Jran) (k : R.Key) (bs : List (ℝ × ℝ)) (hb : ∀ b ∈ bs, b.1 < b.2) :
    (get_ran_t0_params R k bs).length = bs.length ∧
    ∀ (i : ℕ) (hi : i < bs.length) (hi' : i < (get_ran_t0_params R k bs).length),
      (get_ran_t0_params R k bs)[i] = bs[i].1 + R.deviate (R.split (carriedKey R k i)).2 * (bs[i].2 - bs[i].1) ∧
      bs[i].1 ≤ (get_ran_t0_params R k bs)[i] ∧ (get_ran_t0_params R k bs)[i] < bs[i].2 := by
  have e : get_ran_t0_params R k bs = bs.mapIdx fun i b => R.uniform (R.split (carriedKey R k i)).2 b.1 b.2 := by
    unfold get_ran_t0_params; simp only; rw [ran_t0_loop_eq]; rfl
  refine ⟨by rw [e, List.length_mapIdx], fun i hi hi' => ?_⟩
  have hlt := hb _ (List.getElem_mem hi)
  have hm := R.deviate_mem (R.split (carriedKey R k i)).2
  have ev : (get_ran_t0_params R k bs)[i] = bs[i].1 + R.deviate (R.split (carriedKey R k i)).2 * (bs[i].2 - bs[i].1) := by
    simp only [e, List.getElem_mapIdx]
    unfold Jran.uniform
    rw [max_eq_right, add_comm]
    have := mul_nonneg hm.1 (sub_nonneg.2 hlt.le)
    linarith
  refine ⟨ev, ?_, ?_⟩
  · rw [ev]; have := mul_nonneg hm.1 (sub_nonneg.2 hlt.le); linarith
  · rw [ev]; have := mul_lt_mul_of_pos_right hm.2 (sub_pos.2 hlt); linarith

/-- case: a generator whose deviates alternate between 0 and 3/4, and two intervals -/
example := C87_random_params ⟨ℕ, fun k => (k + 1, k), fun k => if k % 2 = 0 then 0 else 3 / 4, fun k => by split_ifs <;> norm_num⟩
  (0 : ℕ) [(-1, 0.25), (10, 11)] (by intro b hb; simp at hb; rcases hb with rfl | rfl <;> norm_num)

/-- C87: with the default bounds the five values are within the documented bounds of the z=0 relation. -/
theorem C87_default_bounds (R : Jran) (k : R.Key) : ∃ ytp x0 kk lo hi, get_ran_t0_params R k = [ytp, x0, kk, lo, hi] ∧
    (-1 ≤ ytp ∧ ytp < 0.25) ∧ (10.25 ≤ x0 ∧ x0 < 10.75) ∧ (0.5 ≤ kk ∧ kk < 2) ∧ (0.1 ≤ lo ∧ lo < 1) ∧ (0 ≤ hi ∧ hi < 0.3) := by
  have hb : ∀ b ∈ MZR_T0_PBDICT, b.1 < b.2 := by
    intro b hb
    simp only [MZR_T0_PBDICT, List.mem_cons, List.not_mem_nil, or_false] at hb
    rcases hb with h | h | h | h | h <;> rw [h] <;> norm_num
  obtain ⟨hl, h⟩ := C87_random_params R k MZR_T0_PBDICT hb
  show ∃ ytp x0 kk lo hi, get_ran_t0_params R k MZR_T0_PBDICT = [ytp, x0, kk, lo, hi] ∧ _
  generalize get_ran_t0_params R k MZR_T0_PBDICT = l at hl h
  match l, hl with
  | [a, b, c, d, e], hl =>
    refine ⟨a, b, c, d, e, rfl, ?_⟩
    have h0 := (h 0 (by decide) (by simp)).2
    have h1 := (h 1 (by decide) (by simp)).2
    have h2 := (h 2 (by decide) (by simp)).2
    have h3 := (h 3 (by decide) (by simp)).2
    have h4 := (h 4 (by decide) (by simp)).2
    simp only [MZR_T0_PBDICT, List.getElem_cons_zero, List.getElem_cons_succ] at h0 h1 h2 h3 h4
    norm_num at h0 h1 h2 h3 h4 ⊢
    exact ⟨h0, h1, h2, h3, h4⟩

/-- C87: the draws are not always admissible for the unbounding transformation: the slope at high mass can come out above the slope
at low mass, and then its unbounded counterpart is nan. -/
theorem C87_inadmissible_draw : ∃ (R : Jran) (k : R.Key) (ytp x0 kk lo hi : ℝ), get_ran_t0_params R k = [ytp, x0, kk, lo, hi] ∧
    lo < hi ∧ ∀ u0 kb : ℝ, 0 < kb →
      XFUtils.inverse_sigmoid (XF.fin hi) (XF.fin u0) (XF.fin kb) (XF.fin 0) (XF.fin lo) = XF.nan := by
  refine ⟨⟨ℕ, fun k => (k + 1, k), fun k => if k = 4 then 1 / 2 else 0, fun k => ?_⟩, 0, -1.0, 10.25, 0.5, 0.1, 0.15, ?_, by norm_num, ?_⟩
  · split_ifs <;> norm_num
  · show ran_t0_loop _ _ _ _ = _
    rw [ran_t0_loop_eq]
    simp only [MZR_T0_PBDICT, List.mapIdx_cons, List.mapIdx_nil, List.nil_append, carriedKey, Jran.uniform]
    norm_num
  · intro u0 kb hkb
    exact (C78_inverse_sigmoid 0.15 u0 kb 0 0.1 hkb (by norm_num)).2.2.2 (Or.inr (by norm_num))

end Dsps.Props
