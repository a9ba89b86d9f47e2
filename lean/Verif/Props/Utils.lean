import Verif.Spec
import Verif.Lemmas.Utils
import Verif.Cases

/-! Properties C07–C16: sigmoids, trapezoids, cumulative mass, weight matrices, power laws
(`/repo/dsps/utils.py`). -/
namespace Dsps.Props
open Dsps.Utils Dsps.Lemmas Dsps.Constants Spec Set
open scoped BigOperators

variable {n m p b : ℕ}

/-! ## C07 -/

/-- C07: the bounding sigmoid is strictly inside its bounds, strictly increasing, and equals the midpoint at `x0`. -/
theorem C07_sigmoid_bounds (x0 k ylo yhi : ℝ) (hk : 0 < k) (hy : ylo < yhi) :
    (∀ x, ylo < sigmoid x x0 k ylo yhi ∧ sigmoid x x0 k ylo yhi < yhi) ∧
    StrictMono (fun x => sigmoid x x0 k ylo yhi) ∧
    sigmoid x0 x0 k ylo yhi = (ylo + yhi) / 2 := by
  refine ⟨fun x => ?_, ?_, ?_⟩
  · have h1 := sigmoid_pos (k * (x - x0))
    have h2 := sigmoid_lt_one (k * (x - x0))
    simp only [sigmoid]
    constructor <;> nlinarith
  · intro x y hxy
    have := sigmoid_strictMono (show k * (x - x0) < k * (y - x0) by nlinarith)
    simp only [sigmoid]
    nlinarith
  · simp only [sigmoid, sub_self, mul_zero, sigmoid_zero]; ring

/-- case: steepness 1/10 and bounds -8, -1 -/
example := C07_sigmoid_bounds 0 (1 / 10) (-8) (-1) (by vec) (by vec)

/-- C07: the bounds are approached: the sigmoid takes every value strictly between its bounds. -/
theorem C07_sigmoid_onto (x0 k ylo yhi y : ℝ) (hk : 0 < k) (h1 : ylo < y) (h2 : y < yhi) :
    ∃ x, sigmoid x x0 k ylo yhi = y := by
  refine ⟨x0 - Real.log ((yhi - ylo) / (y - ylo) - 1) / k, ?_⟩
  have hpos : 0 < (yhi - ylo) / (y - ylo) - 1 := by
    rw [sub_pos, lt_div_iff₀ (by linarith)]; linarith
  simp only [sigmoid, Jnp.sigmoid]
  have : -(k * (x0 - Real.log ((yhi - ylo) / (y - ylo) - 1) / k - x0))
      = Real.log ((yhi - ylo) / (y - ylo) - 1) := by field_simp; ring
  have h3 : yhi - ylo ≠ 0 := by linarith
  rw [this, Real.exp_log hpos, add_sub_cancel, one_div_div, mul_div_cancel₀ _ h3]
  ring

/-- case: some argument is sent to -3 -/
example : ∃ x, sigmoid x 0 (1 / 10) (-8) (-1) = -3 := C07_sigmoid_onto 0 (1 / 10) (-8) (-1) (-3) (by vec) (by vec) (by vec)

example : (0:ℝ) < 0.1 ∧ (-8:ℝ) < -1 := by norm_num

/-! ## C08 -/

/-- C08: `_inverse_sigmoid` undoes `_sigmoid` everywhere. -/
theorem C08_inverse_sigmoid_sigmoid (x x0 k ylo yhi : ℝ) (hk : k ≠ 0) (hy : ylo ≠ yhi) :
    inverse_sigmoid (sigmoid x x0 k ylo yhi) x0 k ylo yhi = x := by
  simp only [inverse_sigmoid, sigmoid, Jnp.sigmoid]
  have h1 : yhi - ylo ≠ 0 := sub_ne_zero.mpr (Ne.symm hy)
  have he := Real.exp_pos (-(k * (x - x0)))
  have : (yhi - ylo) / (ylo + (yhi - ylo) * (1 / (1 + Real.exp (-(k * (x - x0))))) - ylo) - 1
      = Real.exp (-(k * (x - x0))) := by
    rw [add_sub_cancel_left, mul_one_div, div_div_cancel₀ h1]; ring
  rw [this, Real.log_exp]
  field_simp; ring

/-- case: steepness 1/10 and bounds -8, -1, argument 25 -/
example : inverse_sigmoid (sigmoid 25 0 (1 / 10) (-8) (-1)) 0 (1 / 10) (-8) (-1) = 25 :=
  C08_inverse_sigmoid_sigmoid 25 0 (1 / 10) (-8) (-1) (by vec) (by vec)

/-- C08: `_sigmoid` undoes `_inverse_sigmoid` strictly between the bounds (in either order of the bounds); the argument of
the logarithm is positive there. -/
theorem C08_sigmoid_inverse_sigmoid (y x0 k ylo yhi : ℝ) (hk : k ≠ 0)
    (hy : (ylo < y ∧ y < yhi) ∨ (yhi < y ∧ y < ylo)) :
    0 < (yhi - ylo) / (y - ylo) - 1 ∧
    sigmoid (inverse_sigmoid y x0 k ylo yhi) x0 k ylo yhi = y := by
  have h3 : yhi - ylo ≠ 0 := by rcases hy with h | h <;> [linarith [h.1, h.2]; exact sub_ne_zero.mpr (by linarith [h.1, h.2] : yhi < ylo).ne]
  have h4 : y - ylo ≠ 0 := by rcases hy with h | h <;> [linarith [h.1, h.2]; exact sub_ne_zero.mpr h.2.ne]
  have hpos : 0 < (yhi - ylo) / (y - ylo) - 1 := by
    have : (yhi - ylo) / (y - ylo) - 1 = (yhi - y) / (y - ylo) := by field_simp; ring
    rw [this]
    rcases hy with h | h
    · exact div_pos (by linarith [h.2]) (by linarith [h.1])
    · exact div_pos_of_neg_of_neg (by linarith [h.1]) (by linarith [h.2])
  refine ⟨hpos, ?_⟩
  simp only [sigmoid, inverse_sigmoid, Jnp.sigmoid]
  have : -(k * (x0 - Real.log ((yhi - ylo) / (y - ylo) - 1) / k - x0))
      = Real.log ((yhi - ylo) / (y - ylo) - 1) := by field_simp; ring
  rw [this, Real.exp_log hpos, add_sub_cancel, one_div_div, mul_div_cancel₀ _ h3]
  ring

/-- case: the value -3 between the bounds -8 and -1, and between the same bounds in decreasing order -/
example : sigmoid (inverse_sigmoid (-3) 0 (1 / 10) (-8) (-1)) 0 (1 / 10) (-8) (-1) = -3 ∧
    sigmoid (inverse_sigmoid (-3) 0 (1 / 10) (-1) (-8)) 0 (1 / 10) (-1) (-8) = -3 :=
  ⟨(C08_sigmoid_inverse_sigmoid (-3) 0 (1 / 10) (-8) (-1) (by vec) (Or.inl (by vec))).2,
    (C08_sigmoid_inverse_sigmoid (-3) 0 (1 / 10) (-1) (-8) (by vec) (Or.inr (by vec))).2⟩

example : (0.1:ℝ) ≠ 0 ∧ (((-8:ℝ) < -3 ∧ (-3:ℝ) < -1) ∨ ((-1:ℝ) < -3 ∧ (-3:ℝ) < -8)) := by norm_num

/-! ## C09 -/

/-- C09: `_sig_slope` passes through its tipping point and every chord from it has slope strictly between `lo` and `hi`
(equal to them if they coincide). -/
theorem C09_sig_slope (xtp ytp x0 k lo hi : ℝ) :
    sig_slope xtp xtp ytp x0 k lo hi = ytp ∧
    ∀ x, x ≠ xtp →
      min lo hi ≤ (sig_slope x xtp ytp x0 k lo hi - ytp) / (x - xtp) ∧
      (sig_slope x xtp ytp x0 k lo hi - ytp) / (x - xtp) ≤ max lo hi ∧
      (lo ≠ hi → min lo hi < (sig_slope x xtp ytp x0 k lo hi - ytp) / (x - xtp) ∧
        (sig_slope x xtp ytp x0 k lo hi - ytp) / (x - xtp) < max lo hi) := by
  refine ⟨by simp [sig_slope], fun x hx => ?_⟩
  have hx' : x - xtp ≠ 0 := sub_ne_zero.mpr hx
  have e : (sig_slope x xtp ytp x0 k lo hi - ytp) / (x - xtp) = sigmoid x x0 k lo hi := by
    simp only [sig_slope]; field_simp; ring
  rw [e]
  have h1 := sigmoid_pos (k * (x - x0))
  have h2 := sigmoid_lt_one (k * (x - x0))
  simp only [sigmoid]
  rcases le_total lo hi with h | h
  · rw [min_eq_left h, max_eq_right h]
    refine ⟨by nlinarith, by nlinarith, fun hne => ?_⟩
    have := lt_of_le_of_ne h hne
    constructor <;> nlinarith
  · rw [min_eq_right h, max_eq_left h]
    refine ⟨by nlinarith, by nlinarith, fun hne => ?_⟩
    have := lt_of_le_of_ne h hne.symm
    constructor <;> nlinarith

/-- C09: the same for `_tw_sig_slope`, whose chord slope may attain the bounds. -/
theorem C09_tw_sig_slope (xtp ytp x0 tw_h lo hi : ℝ) :
    tw_sig_slope xtp xtp ytp x0 tw_h lo hi = ytp ∧
    ∀ x, x ≠ xtp →
      min lo hi ≤ (tw_sig_slope x xtp ytp x0 tw_h lo hi - ytp) / (x - xtp) ∧
      (tw_sig_slope x xtp ytp x0 tw_h lo hi - ytp) / (x - xtp) ≤ max lo hi := by
  refine ⟨by simp [tw_sig_slope], fun x hx => ?_⟩
  have hx' : x - xtp ≠ 0 := sub_ne_zero.mpr hx
  have e : (tw_sig_slope x xtp ytp x0 tw_h lo hi - ytp) / (x - xtp) = tw_sigmoid x x0 tw_h lo hi := by
    simp only [tw_sig_slope]; field_simp; ring
  rw [e]
  have h1 := twC_nonneg ((x - x0) / tw_h)
  have h2 := twC_le_one ((x - x0) / tw_h)
  simp only [tw_sigmoid, tw_cuml_kern_eq]
  rcases le_total lo hi with h | h
  · rw [min_eq_left h, max_eq_right h]; constructor <;> nlinarith
  · rw [min_eq_right h, max_eq_left h]; constructor <;> nlinarith

/-- C09: far on either side of the roll the slope is exactly the asymptotic one (triweight version, positive width). -/
theorem C09_tw_sig_slope_asymptotes (x xtp ytp x0 tw_h lo hi : ℝ) (hh : 0 < tw_h) :
    (x ≤ x0 - 3 * tw_h → tw_sig_slope x xtp ytp x0 tw_h lo hi = ytp + lo * (x - xtp)) ∧
    (x0 + 3 * tw_h ≤ x → tw_sig_slope x xtp ytp x0 tw_h lo hi = ytp + hi * (x - xtp)) := by
  simp only [tw_sig_slope, tw_sigmoid, tw_cuml_kern_eq]
  constructor
  · intro h
    rw [twC_of_le (by rw [div_le_iff₀ hh]; linarith)]; ring
  · intro h
    rw [twC_of_ge (by rw [le_div_iff₀ hh]; linarith)]; ring

/-- case: a point more than three widths above the transition -/
example : tw_sig_slope 9 1 2 5 1 (-1) 3 = 2 + 3 * (9 - 1) :=
  (C09_tw_sig_slope_asymptotes 9 1 2 5 1 (-1) 3 (by vec)).2 (by vec)

/-! ## C10 -/

/-- C10: `cumtrapz` starts at zero and each increment is the trapezoid area of that interval. -/
theorem C10_cumtrapz_increments (x y : Fin (n + 1) → ℝ) :
    cumtrapz x y 0 = 0 ∧
    ∀ k : Fin n, cumtrapz x y k.succ = cumtrapz x y k.castSucc
      + trapezoidArea (x k.castSucc) (x k.succ) (y k.castSucc) (y k.succ) := by
  refine ⟨cumtrapz_zero x y, fun k => ?_⟩
  rw [cumtrapz_succ, trapezoidArea]; ring

/-- C10: the `k`-th entry is `trapz` of the first `k+1` samples. -/
theorem C10_cumtrapz_prefix (x y : Fin (n + 1) → ℝ) (k : Fin (n + 1)) :
    cumtrapz x y k = trapz (fun i : Fin (k.val + 1) => x (Fin.castLE k.2 i))
      (fun i : Fin (k.val + 1) => y (Fin.castLE k.2 i)) := by
  induction k using Fin.induction with
  | zero => rw [cumtrapz_zero, trapz_eq]; exact (Fin.sum_univ_zero _).symm
  | succ k ih =>
    rw [(C10_cumtrapz_increments x y).2, ih, trapz_eq, trapz_eq]
    simp only [Fin.val_succ, Fin.val_castSucc]
    rw [Fin.sum_univ_castSucc (n := k.val)]
    rfl

/-- C10: the last entry is `trapz` of everything. -/
theorem C10_cumtrapz_last (x y : Fin (n + 1) → ℝ) : cumtrapz x y (Fin.last n) = trapz x y := by
  rw [C10_cumtrapz_prefix]; rfl

/-- C10: on a sorted grid with a non-negative integrand it never decreases. -/
theorem C10_cumtrapz_mono (x y : Fin (n + 1) → ℝ) (hx : Monotone x) (hy : ∀ i, 0 ≤ y i) :
    Monotone (cumtrapz x y) := by
  rw [Fin.monotone_iff_le_succ]
  intro k
  rw [cumtrapz_succ]
  have h1 := hx (Fin.castSucc_lt_succ (i := k)).le
  have := mul_nonneg (sub_nonneg.mpr h1) (add_nonneg (hy k.succ) (hy k.castSucc))
  linarith

/-- case: an unevenly spaced table -/
example : Monotone (cumtrapz ![0, 1, 3] ![0, 2, 1]) :=
  C10_cumtrapz_mono ![0, 1, 3] ![0, 2, 1] (Case.sm3 (by vec) (by vec)).monotone (Case.all3 (by vec) (by vec) (by vec))

example : ∃ x y : Fin 3 → ℝ, Monotone x ∧ (∀ i, 0 ≤ y i) ∧ cumtrapz x y 2 = 5 / 2 := by
  refine ⟨![0, 1, 2], ![0, 1, 3], ?_, ?_, ?_⟩
  · rw [Fin.monotone_iff_le_succ]; intro i; fin_cases i <;> simp
  · intro i; fin_cases i <;> simp
  · have := C10_cumtrapz_last ![0, 1, 2] ![0, 1, 3]
    rw [show (2 : Fin 3) = Fin.last 2 from rfl, this, trapz_eq]
    simp [Fin.sum_univ_succ]; norm_num

/-! ## C11 -/

/-- C11: linear in the integrand. -/
theorem C11_trapz_linear (x y z : Fin (n + 1) → ℝ) (a c : ℝ) :
    trapz x (fun i => a * y i + c * z i) = a * trapz x y + c * trapz x z := by
  simp only [trapz_eq, Finset.mul_sum]
  rw [← Finset.sum_add_distrib]
  exact Finset.sum_congr rfl fun i _ => by ring

/-- C11: positive and monotone in the integrand on sorted grids. -/
theorem C11_trapz_mono (x y z : Fin (n + 1) → ℝ) (hx : Monotone x) (hyz : ∀ i, y i ≤ z i) :
    trapz x y ≤ trapz x z := by
  simp only [trapz_eq]
  apply Finset.sum_le_sum
  intro i _
  have h1 := sub_nonneg.mpr (hx (Fin.castSucc_lt_succ (i := i)).le)
  have := mul_le_mul_of_nonneg_left (add_le_add (hyz i.castSucc) (hyz i.succ)) h1
  linarith

/-- case: two integrands on an unevenly spaced table -/
example : trapz ![0, 1, 3] ![0, 2, -1] ≤ trapz ![0, 1, 3] ![1, 2, 0] :=
  C11_trapz_mono ![0, 1, 3] ![0, 2, -1] ![1, 2, 0] (Case.sm3 (by vec) (by vec)).monotone
    (by intro i; fin_cases i <;> vec)

theorem C11_trapz_nonneg (x y : Fin (n + 1) → ℝ) (hx : Monotone x) (hy : ∀ i, 0 ≤ y i) : 0 ≤ trapz x y := by
  have := C11_trapz_mono x (fun _ => 0) y hx hy
  have h0 : trapz x (fun _ => 0) = 0 := by simp [trapz_eq]
  linarith

/-- case: a non-negative integrand on an unevenly spaced table -/
example : 0 ≤ trapz ![0, 1, 3] ![0, 2, 1] :=
  C11_trapz_nonneg ![0, 1, 3] ![0, 2, 1] (Case.sm3 (by vec) (by vec)).monotone (Case.all3 (by vec) (by vec) (by vec))

/-- C11: exact for straight lines, on any grid (sorted or not): the result is the integral of `c0 + c1 u`. -/
theorem C11_trapz_affine (x : Fin (n + 1) → ℝ) (c0 c1 : ℝ) :
    trapz x (fun i => c0 + c1 * x i) = ∫ u in (x 0)..(x (Fin.last n)), (c0 + c1 * u) := by
  have h : ∫ u in (x 0)..(x (Fin.last n)), (c0 + c1 * u)
      = c0 * (x (Fin.last n) - x 0) + c1 * (x (Fin.last n) ^ 2 - x 0 ^ 2) / 2 := by
    rw [intervalIntegral.integral_add (by simp) (by apply Continuous.intervalIntegrable; fun_prop)]
    rw [intervalIntegral.integral_const, intervalIntegral.integral_const_mul, integral_id]
    simp; ring
  rw [h, trapz_eq]
  have := sum_telescope fun i => c0 * x i + c1 * x i ^ 2 / 2
  have e : c0 * (x (Fin.last n) - x 0) + c1 * (x (Fin.last n) ^ 2 - x 0 ^ 2) / 2
      = (c0 * x (Fin.last n) + c1 * x (Fin.last n) ^ 2 / 2) - (c0 * x 0 + c1 * x 0 ^ 2 / 2) := by ring
  rw [e, ← this]
  exact Finset.sum_congr rfl fun i _ => by ring

/-- C11: reversing the grid (and the samples with it) flips the sign. -/
theorem C11_trapz_reverse (x y : Fin (n + 1) → ℝ) :
    trapz (fun i => x i.rev) (fun i => y i.rev) = - trapz x y := by
  simp only [trapz_eq]
  rw [← Finset.sum_neg_distrib, ← Equiv.sum_comp (Fin.revPerm)]
  refine Finset.sum_congr rfl fun i _ => ?_
  simp only [Fin.revPerm_apply, Fin.rev_succ, Fin.rev_castSucc, Fin.rev_rev]
  ring

/-- C11: additive when the interval is split at sample number `m`. -/
theorem C11_trapz_split (x y : Fin (m + n + 1) → ℝ) :
    trapz x y =
      trapz (fun i : Fin (m + 1) => x ⟨i, by omega⟩) (fun i : Fin (m + 1) => y ⟨i, by omega⟩) +
      trapz (fun i : Fin (n + 1) => x ⟨m + i, by omega⟩) (fun i : Fin (n + 1) => y ⟨m + i, by omega⟩) := by
  simp only [trapz_eq]
  rw [Fin.sum_univ_add]
  rfl

/-! ## C12 -/

/-- C12: cumulative mass is 1e9 times the exact trapezoid sum of the history padded with `(T_BIRTH_MIN, SFR_MIN)`. -/
theorem C12_mstar_formula (t s : Fin (n + 1) → ℝ) :
    cumulative_mstar_formed t s 0 = 1e9 * trapezoidArea 0.001 (t 0) 1e-14 (s 0) ∧
    ∀ k : Fin n, cumulative_mstar_formed t s k.succ = cumulative_mstar_formed t s k.castSucc
      + 1e9 * trapezoidArea (t k.castSucc) (t k.succ) (s k.castSucc) (s k.succ) := by
  constructor
  · simp only [cumulative_mstar_formed, Jnp.tail]
    rw [cumtrapz_succ, Fin.castSucc_zero, cumtrapz_zero]
    simp only [setTail_succ, setTail_zero, Jnp.setAt, Function.update_self, trapezoidArea, T_BIRTH_MIN, SFR_MIN, YEAR_PER_GYR]
    ring
  · intro k
    simp only [cumulative_mstar_formed, Jnp.tail]
    rw [cumtrapz_succ]
    simp only [← Fin.succ_castSucc, setTail_succ, trapezoidArea, YEAR_PER_GYR]
    ring

/-- C12: strictly positive and strictly increasing for positive SFR. -/
theorem C12_mstar_pos_strictMono (t s : Fin (n + 1) → ℝ) (ht : StrictMono t) (ht0 : 0.001 < t 0)
    (hs : ∀ i, 0 < s i) :
    (∀ i, 0 < cumulative_mstar_formed t s i) ∧ StrictMono (cumulative_mstar_formed t s) := by
  have hmono : StrictMono (cumulative_mstar_formed t s) := by
    rw [Fin.strictMono_iff_lt_succ]
    intro k
    rw [(C12_mstar_formula t s).2]
    have h1 := ht (Fin.castSucc_lt_succ (i := k))
    have : 0 < trapezoidArea (t k.castSucc) (t k.succ) (s k.castSucc) (s k.succ) := by
      unfold trapezoidArea
      have := mul_pos (sub_pos.mpr h1) (add_pos (hs k.castSucc) (hs k.succ))
      linarith
    linarith [mul_pos (show (0:ℝ) < 1e9 by norm_num) this]
  refine ⟨fun i => ?_, hmono⟩
  have h0 : 0 < cumulative_mstar_formed t s 0 := by
    rw [(C12_mstar_formula t s).1]
    unfold trapezoidArea
    have := mul_pos (sub_pos.mpr ht0) (add_pos (show (0:ℝ) < 1e-14 by norm_num) (hs 0))
    have h2 : (0:ℝ) < (t 0 - 0.001) * (1e-14 + s 0) / 2 := by linarith
    exact mul_pos (by norm_num) h2
  exact h0.trans_le (hmono.monotone (Fin.zero_le i))

/-- case: a three-point star formation history -/
example := C12_mstar_pos_strictMono ![0.1, 1, 13.8] ![1, 2, 0.5] (Case.sm3 (by vec) (by vec)) (by vec)
  (Case.all3 (by vec) (by vec) (by vec))

/-- C12 for non-negative SFR: positive and non-decreasing (the pre-table padding keeps the mass off zero). -/
theorem C12_mstar_pos_of_nonneg (t s : Fin (n + 1) → ℝ) (ht : Monotone t) (ht0 : 0.001 < t 0)
    (hs : ∀ i, 0 ≤ s i) :
    (∀ i, 0 < cumulative_mstar_formed t s i) ∧ Monotone (cumulative_mstar_formed t s) := by
  have hmono : Monotone (cumulative_mstar_formed t s) := by
    rw [Fin.monotone_iff_le_succ]
    intro k
    rw [(C12_mstar_formula t s).2]
    have h1 := ht (Fin.castSucc_lt_succ (i := k)).le
    have : 0 ≤ trapezoidArea (t k.castSucc) (t k.succ) (s k.castSucc) (s k.succ) := by
      unfold trapezoidArea
      have := mul_nonneg (sub_nonneg.mpr h1) (add_nonneg (hs k.castSucc) (hs k.succ))
      linarith
    linarith [mul_nonneg (show (0:ℝ) ≤ 1e9 by norm_num) this]
  refine ⟨fun i => ?_, hmono⟩
  have h0 : 0 < cumulative_mstar_formed t s 0 := by
    rw [(C12_mstar_formula t s).1]
    unfold trapezoidArea
    have h1 : (0:ℝ) < 1e-14 + s 0 := by linarith [hs 0, show (0:ℝ) < 1e-14 by norm_num]
    have := mul_pos (sub_pos.mpr ht0) h1
    have h2 : (0:ℝ) < (t 0 - 0.001) * (1e-14 + s 0) / 2 := by linarith
    exact mul_pos (by norm_num) h2
  exact h0.trans_le (hmono (Fin.zero_le i))

/-- case: a quenched star formation history -/
example := C12_mstar_pos_of_nonneg ![0.1, 1, 13.8] ![1, 0, 0] (Case.sm3 (by vec) (by vec)).monotone (by vec)
  (Case.all3 (by vec) (by vec) (by vec))

/-- C12, causality: the mass at table time `k` depends only on the table (times and SFR) up to `k`. -/
theorem C12_mstar_causal (t t' s s' : Fin (n + 1) → ℝ) (k : Fin (n + 1))
    (ht : ∀ j ≤ k, t j = t' j) (hs : ∀ j ≤ k, s j = s' j) :
    cumulative_mstar_formed t s k = cumulative_mstar_formed t' s' k := by
  induction k using Fin.induction with
  | zero => rw [(C12_mstar_formula t s).1, (C12_mstar_formula t' s').1, ht 0 le_rfl, hs 0 le_rfl]
  | succ k ih =>
    have hk : k.castSucc ≤ k.succ := (Fin.castSucc_lt_succ (i := k)).le
    rw [(C12_mstar_formula t s).2, (C12_mstar_formula t' s').2,
      ih (fun j hj => ht j (hj.trans hk)) (fun j hj => hs j (hj.trans hk)),
      ht _ hk, ht _ le_rfl, hs _ hk, hs _ le_rfl]

/-- case: two histories that agree up to the second entry only -/
example : cumulative_mstar_formed ![0.1, 1, 13.8] ![1, 2, 0.5] 1 = cumulative_mstar_formed ![0.1, 1, 12] ![1, 2, 7] 1 :=
  C12_mstar_causal ![0.1, 1, 13.8] ![0.1, 1, 12] ![1, 2, 0.5] ![1, 2, 7] 1
    (by intro j hj; fin_cases j <;> first | rfl | (exact absurd hj (by decide)))
    (by intro j hj; fin_cases j <;> first | rfl | (exact absurd hj (by decide)))

example : ∃ t s : Fin 3 → ℝ, StrictMono t ∧ 0.001 < t 0 ∧ ∀ i, 0 < s i := by
  refine ⟨![0.1, 1, 13.8], ![1, 2, 3], ?_, ?_, ?_⟩
  · rw [Fin.strictMono_iff_lt_succ]; intro i; fin_cases i <;> simp <;> norm_num
  · norm_num
  · intro i; fin_cases i <;> norm_num

/-! ## C13 -/

/-- C13 is false of the code: the docstring promises constant SFR = SFR_MIN on (T_BIRTH_MIN, t_table[0]), i.e. a pre-table
mass of 1e9 * SFR_MIN * (t₀ - T_BIRTH_MIN); the code integrates the straight line from SFR_MIN to sfh[0].  Exact
characterisation of when the documented value is returned. -/
theorem C13_pretable_mass_iff (t s : Fin (n + 1) → ℝ) (ht0 : 0.001 < t 0) :
    cumulative_mstar_formed t s 0 = 1e9 * (1e-14 * (t 0 - 0.001)) ↔ s 0 = 1e-14 := by
  rw [(C12_mstar_formula t s).1, trapezoidArea]
  have h : t 0 - 0.001 ≠ 0 := by linarith
  constructor
  · intro e
    have : (t 0 - 0.001) * (s 0 - 1e-14) = 0 := by linear_combination (2 / 1e9) * e
    rcases mul_eq_zero.mp this with h' | h'
    · exact absurd h' h
    · linarith
  · intro e; rw [e]; ring

/-- case: a table that starts at 0.1 Gyr -/
example := C13_pretable_mass_iff ![0.1, 1, 13.8] ![1, 2, 0.5] (by vec)

/-- C13: witness that the documented assumption is violated: with sfh = 1 Msun/yr at t_table[0] = 0.1 Gyr the code credits
about 4.95e7 Msun before the table starts. -/
theorem C13_pretable_doc_violated : ∃ t s : Fin 1 → ℝ, 0.01 ≤ t 0 ∧ 0 < s 0 ∧
    cumulative_mstar_formed t s 0 ≠ 1e9 * (1e-14 * (t 0 - 0.001)) ∧
    4.9e7 < cumulative_mstar_formed t s 0 := by
  refine ⟨fun _ => 0.1, fun _ => 1, by norm_num, by norm_num, ?_, ?_⟩
  · rw [Ne, C13_pretable_mass_iff _ _ (by norm_num)]; norm_num
  · rw [(C12_mstar_formula _ _).1, trapezoidArea]; norm_num

/-- C13 (`_partial`): what the code does guarantee – the documented pre-table mass whenever the table itself starts at
SFR_MIN. -/
theorem C13_pretable_mass_partial (t s : Fin (n + 1) → ℝ) (hs : s 0 = 1e-14) :
    cumulative_mstar_formed t s 0 = 1e9 * (1e-14 * (t 0 - 0.001)) := by
  rw [(C12_mstar_formula t s).1, trapezoidArea, hs]; ring

/-- case: a table that starts with the floor -/
example := C13_pretable_mass_partial ![0.1, 1, 13.8] ![1e-14, 2, 0.5] (by simp)

/-! ## C14 -/

/-- C14: index identities. -/
theorem C14_outer_product (w1 : Fin n → ℝ) (w2 : Fin m → ℝ) (w3 : Fin p → ℝ) (i : Fin n) (j : Fin m) (k : Fin p) :
    mult_2d_vmap w1 w2 i j = w1 i * w2 j ∧ mult_3d_vmap w1 w2 w3 i j k = w1 i * w2 j * w3 k := ⟨rfl, rfl⟩

theorem C14_outer_product_batched (w1 : Fin b → Fin n → ℝ) (w2 : Fin b → Fin m → ℝ) (w3 : Fin b → Fin p → ℝ)
    (g : Fin b) (i : Fin n) (j : Fin m) (k : Fin p) :
    get_weight_matrices_2d w1 w2 g i j = w1 g i * w2 g j ∧
    get_weight_matrices_3d w1 w2 w3 g i j k = w1 g i * w2 g j * w3 g k := ⟨rfl, rfl⟩

/-- C14: totals multiply. -/
theorem C14_totals (w1 : Fin n → ℝ) (w2 : Fin m → ℝ) (w3 : Fin p → ℝ) :
    ∑ i, ∑ j, mult_2d_vmap w1 w2 i j = (∑ i, w1 i) * ∑ j, w2 j ∧
    ∑ i, ∑ j, ∑ k, mult_3d_vmap w1 w2 w3 i j k = (∑ i, w1 i) * (∑ j, w2 j) * ∑ k, w3 k := by
  simp only [(C14_outer_product w1 w2 w3 _ _ _).2, mult_2d_vmap, Jnp.vmap, mult_2d]
  constructor
  · rw [Finset.sum_mul_sum]
  · simp only [← Finset.mul_sum, ← Finset.sum_mul]

/-- C14: unit-sum inputs give a unit-sum matrix whose marginals are the inputs. -/
theorem C14_marginals (w1 : Fin n → ℝ) (w2 : Fin m → ℝ) (h1 : IsProbVector w1) (h2 : IsProbVector w2) :
    IsProbMatrix (mult_2d_vmap w1 w2) ∧
    (∀ i, ∑ j, mult_2d_vmap w1 w2 i j = w1 i) ∧ (∀ j, ∑ i, mult_2d_vmap w1 w2 i j = w2 j) := by
  refine ⟨⟨fun i j => mul_nonneg (h1.1 i) (h2.1 j), ?_⟩, fun i => ?_, fun j => ?_⟩
  · rw [(C14_totals w1 w2 (fun _ : Fin 0 => 0)).1, h1.2, h2.2]; norm_num
  · simp only [mult_2d_vmap, Jnp.vmap, mult_2d, ← Finset.mul_sum, h2.2, mul_one]
  · simp only [mult_2d_vmap, Jnp.vmap, mult_2d, ← Finset.sum_mul, h1.2, one_mul]

/-- case: two unequal probability vectors of different lengths -/
example := C14_marginals ![1 / 4, 3 / 4] ![1 / 2, 1 / 3, 1 / 6] (Case.prob2 (by vec) (by vec) (by vec))
  (Case.prob3 (by vec) (by vec) (by vec) (by vec))

theorem C14_marginals_3d (w1 : Fin n → ℝ) (w2 : Fin m → ℝ) (w3 : Fin p → ℝ) (h1 : IsProbVector w1)
    (h2 : IsProbVector w2) (h3 : IsProbVector w3) :
    (∀ i j k, 0 ≤ mult_3d_vmap w1 w2 w3 i j k) ∧
    (∑ i, ∑ j, ∑ k, mult_3d_vmap w1 w2 w3 i j k = 1) ∧
    (∀ i, ∑ j, ∑ k, mult_3d_vmap w1 w2 w3 i j k = w1 i) ∧
    (∀ j, ∑ i, ∑ k, mult_3d_vmap w1 w2 w3 i j k = w2 j) ∧
    (∀ k, ∑ i, ∑ j, mult_3d_vmap w1 w2 w3 i j k = w3 k) := by
  refine ⟨fun i j k => mul_nonneg (mul_nonneg (h1.1 i) (h2.1 j)) (h3.1 k), ?_, fun i => ?_, fun j => ?_, fun k => ?_⟩
  · rw [(C14_totals w1 w2 w3).2, h1.2, h2.2, h3.2]; norm_num
  · simp only [mult_3d_vmap, Jnp.vmap, mult_3d, ← Finset.mul_sum, h3.2, mul_one, h2.2]
  · simp only [mult_3d_vmap, Jnp.vmap, mult_3d, ← Finset.mul_sum, ← Finset.sum_mul, h3.2, mul_one, h1.2, one_mul]
  · simp only [mult_3d_vmap, Jnp.vmap, mult_3d, ← Finset.mul_sum, ← Finset.sum_mul, h1.2, h2.2, one_mul]

/-- case: three probability vectors -/
example := C14_marginals_3d ![1 / 4, 3 / 4] ![1 / 2, 1 / 3, 1 / 6] ![1, 0] (Case.prob2 (by vec) (by vec) (by vec))
  (Case.prob3 (by vec) (by vec) (by vec) (by vec)) (Case.prob2 (by vec) (by vec) (by vec))

example : IsProbVector ![(0.25:ℝ), 0.75] := by
  refine ⟨fun i => by fin_cases i <;> norm_num, by simp [Fin.sum_univ_succ]; norm_num⟩

/-! ## C15, C16 -/

theorem powerlaw_cdf (a b g y : ℝ) (ha : 0 < a) (hg : g ≠ 0) (hy : 0 < y) :
    ∫ u in a..y, powerlaw_pdf u a b g = (y ^ g - a ^ g) / (b ^ g - a ^ g) := by
  simp only [powerlaw_pdf]
  rw [intervalIntegral.integral_div, intervalIntegral.integral_const_mul, integral_rpow]
  · rw [sub_add_cancel]; field_simp
  · right
    refine ⟨by intro h; apply hg; linarith, ?_⟩
    intro h
    rw [mem_uIcc] at h
    rcases h with h | h <;> linarith [h.1, h.2]

theorem powerlaw_sign (a b g : ℝ) (ha : 0 < a) (hab : a < b) (hg : g ≠ 0) : 0 < g / (b ^ g - a ^ g) := by
  rcases lt_or_gt_of_ne hg with h | h
  · exact div_pos_of_neg_of_neg h (sub_neg.mpr (Real.rpow_lt_rpow_of_neg ha hab h))
  · exact div_pos h (sub_pos.mpr (Real.rpow_lt_rpow ha.le hab h))

/-- C15: `powerlaw_pdf` is a positive density proportional to `x^(g-1)` which integrates to exactly one over `[a,b]`. -/
theorem C15_powerlaw_pdf (a b g : ℝ) (ha : 0 < a) (hab : a < b) (hg : g ≠ 0) :
    (∀ x, 0 < x → 0 < powerlaw_pdf x a b g) ∧
    (∀ x y, 0 < x → 0 < y → powerlaw_pdf x a b g * y ^ (g - 1) = powerlaw_pdf y a b g * x ^ (g - 1)) ∧
    ∫ u in a..b, powerlaw_pdf u a b g = 1 := by
  have hs := powerlaw_sign a b g ha hab hg
  have hne : b ^ g - a ^ g ≠ 0 := by intro h; rw [h] at hs; simp at hs
  refine ⟨fun x hx => ?_, fun x y _ _ => ?_, ?_⟩
  · have : powerlaw_pdf x a b g = g / (b ^ g - a ^ g) * x ^ (g - 1) := by simp only [powerlaw_pdf]; ring
    rw [this]; exact mul_pos hs (Real.rpow_pos_of_pos hx _)
  · simp only [powerlaw_pdf]; ring
  · rw [powerlaw_cdf a b g b ha hg (ha.trans hab), div_self hne]

/-- case: a falling power law on [1/2, 2] -/
example := C15_powerlaw_pdf (1 / 2) 2 (-1.3) (by vec) (by vec) (by vec)

/-- C16: for every deviate `r ∈ [0,1]` the sample lies in `[a,b]` and the mass of `powerlaw_pdf` below it is exactly `r`. -/
theorem C16_powerlaw_rvs (a b g r : ℝ) (ha : 0 < a) (hab : a < b) (hg : g ≠ 0) (hr0 : 0 ≤ r) (hr1 : r ≤ 1) :
    a ≤ powerlaw_rvs r a b g ∧ powerlaw_rvs r a b g ≤ b ∧
    ∫ u in a..(powerlaw_rvs r a b g), powerlaw_pdf u a b g = r := by
  have hb : 0 < b := ha.trans hab
  have hs := powerlaw_sign a b g ha hab hg
  have hne : b ^ g - a ^ g ≠ 0 := by intro h; rw [h] at hs; simp at hs
  have hag := Real.rpow_pos_of_pos ha g
  have hbg := Real.rpow_pos_of_pos hb g
  have hmid : 0 < a ^ g + (b ^ g - a ^ g) * r := by
    rcases hr0.eq_or_lt with h | h
    · rw [← h]; simpa using hag
    · have h1 := mul_pos hbg h
      have h2 := mul_nonneg hag.le (sub_nonneg.mpr hr1)
      linarith
  have hpos : 0 < powerlaw_rvs r a b g := Real.rpow_pos_of_pos hmid _
  have hpow : powerlaw_rvs r a b g ^ g = a ^ g + (b ^ g - a ^ g) * r := by
    simp only [powerlaw_rvs]
    rw [← Real.rpow_mul hmid.le, show (1.0 / g * g : ℝ) = 1 by norm_num; field_simp, Real.rpow_one]
  refine ⟨?_, ?_, ?_⟩
  · rcases lt_or_gt_of_ne hg with h | h
    · have hlt := Real.rpow_lt_rpow_of_neg ha hab h
      rw [← Real.rpow_le_rpow_iff_of_neg hpos ha h, hpow]; nlinarith
    · have hlt := Real.rpow_lt_rpow ha.le hab h
      rw [← Real.rpow_le_rpow_iff ha.le hpos.le h, hpow]; nlinarith
  · rcases lt_or_gt_of_ne hg with h | h
    · have hlt := Real.rpow_lt_rpow_of_neg ha hab h
      rw [← Real.rpow_le_rpow_iff_of_neg hb hpos h, hpow]; nlinarith
    · have hlt := Real.rpow_lt_rpow ha.le hab h
      rw [← Real.rpow_le_rpow_iff hpos.le hb.le h, hpow]; nlinarith
  · rw [powerlaw_cdf a b g _ ha hg hpos, hpow]; field_simp; ring

/-- case: the quantile 3/10 of a falling power law on [1/2, 2] -/
example := C16_powerlaw_rvs (1 / 2) 2 (-1.3) (3 / 10) (by vec) (by vec) (by vec) (by vec) (by vec)

/-- C16: the sampler is strictly increasing in the deviate. -/
theorem C16_powerlaw_rvs_strictMono (a b g : ℝ) (ha : 0 < a) (hab : a < b) (hg : g ≠ 0) :
    StrictMonoOn (fun r => powerlaw_rvs r a b g) (Icc 0 1) := by
  intro r hr r' hr' hlt
  by_contra hcon
  simp only [not_lt] at hcon
  have h1 := C16_powerlaw_rvs a b g r ha hab hg hr.1 hr.2
  have h2 := C16_powerlaw_rvs a b g r' ha hab hg hr'.1 hr'.2
  have hp : 0 < powerlaw_rvs r' a b g := ha.trans_le h2.1
  have hp' : 0 < powerlaw_rvs r a b g := ha.trans_le h1.1
  have e1 := h1.2.2
  have e2 := h2.2.2
  rw [powerlaw_cdf a b g _ ha hg hp'] at e1
  rw [powerlaw_cdf a b g _ ha hg hp] at e2
  have hs := powerlaw_sign a b g ha hab hg
  have key : (powerlaw_rvs r' a b g ^ g - a ^ g) / (b ^ g - a ^ g) ≤ (powerlaw_rvs r a b g ^ g - a ^ g) / (b ^ g - a ^ g) := by
    rcases lt_or_gt_of_ne hg with h | h
    · have := Real.rpow_lt_rpow_of_neg ha hab h
      apply div_le_div_of_nonpos_of_le (by linarith)
      linarith [(Real.rpow_le_rpow_iff_of_neg hp' hp h).mpr hcon]
    · have := Real.rpow_lt_rpow ha.le hab h
      apply div_le_div_of_nonneg_right _ (by linarith)
      linarith [(Real.rpow_le_rpow_iff hp.le hp'.le h).mpr hcon]
  rw [e1, e2] at key
  linarith

/-- case: a falling power law on [1/2, 2] -/
example := C16_powerlaw_rvs_strictMono (1 / 2) 2 (-1.3) (by vec) (by vec) (by vec)

example : (0:ℝ) < 0.5 ∧ (0.5:ℝ) < 2 ∧ (-1.3:ℝ) ≠ 0 ∧ (0:ℝ) ≤ 0.3 ∧ (0.3:ℝ) ≤ 1 := by norm_num

end Dsps.Props
