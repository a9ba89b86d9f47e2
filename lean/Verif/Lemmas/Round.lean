import Verif.Fl
import Mathlib.Data.Real.Archimedean
import Mathlib.Data.Int.Log
import Mathlib.Algebra.Order.Round
import Mathlib.Tactic.Linarith
import Mathlib.Tactic.Ring
import Mathlib.Tactic.Positivity
import Mathlib.Tactic.FieldSimp
import Mathlib.Tactic.Push

/-! Round-to-nearest binary arithmetic with a `p`-bit significand (unbounded exponent) is an instance of `Fl.Arith`, and is
monotone and closed. -/
namespace Dsps.Lemmas
open Fl

/-- the spacing of `p`-bit numbers around `x` -/
noncomputable def quantum (p : ℕ) (x : ℝ) : ℝ := (2 : ℝ) ^ (Int.log 2 |x| - p + 1)

/-- nearest `p`-bit binary floating point number (ties upwards) -/
noncomputable def nearest (p : ℕ) (x : ℝ) : ℝ := round (x / quantum p x) * quantum p x

lemma quantum_pos (p : ℕ) (x : ℝ) : 0 < quantum p x := zpow_pos (by norm_num) _

lemma log_le {x : ℝ} (hx : x ≠ 0) : (2 : ℝ) ^ Int.log 2 |x| ≤ |x| := by
  have := Int.zpow_log_le_self (b := 2) (by norm_num) (abs_pos.mpr hx); exact_mod_cast this

lemma lt_log (x : ℝ) : |x| < (2 : ℝ) ^ (Int.log 2 |x| + 1) := by
  have := Int.lt_zpow_succ_log_self (b := 2) (by norm_num) |x|; exact_mod_cast this

lemma quantum_mul (p : ℕ) (x : ℝ) : quantum p x * 2 ^ p = (2 : ℝ) ^ (Int.log 2 |x| + 1) := by
  rw [quantum, ← zpow_natCast, ← zpow_add₀ (by norm_num)]; congr 1; ring

lemma quantum_mul' {p : ℕ} (hp : 1 ≤ p) (x : ℝ) : quantum p x * 2 ^ (p - 1) = (2 : ℝ) ^ Int.log 2 |x| := by
  rw [quantum, ← zpow_natCast, ← zpow_add₀ (by norm_num)]; congr 1; push_cast [hp]; ring

lemma nearest_zero (p : ℕ) : nearest p 0 = 0 := by simp [nearest]

lemma nearest_rel {p : ℕ} (hp : 1 ≤ p) (x : ℝ) : |nearest p x - x| ≤ (1 / 2) ^ p * |x| := by
  rcases eq_or_ne x 0 with rfl | hx
  · simp [nearest_zero]
  have hq := quantum_pos p x
  have e : nearest p x - x = -((x / quantum p x - round (x / quantum p x)) * quantum p x) := by
    rw [nearest, sub_mul, div_mul_cancel₀ _ hq.ne']; ring
  rw [e, abs_neg, abs_mul, abs_of_pos hq]
  calc |x / quantum p x - round (x / quantum p x)| * quantum p x ≤ 1 / 2 * quantum p x :=
        mul_le_mul_of_nonneg_right (abs_sub_round _) hq.le
    _ = (1 / 2) ^ p * (quantum p x * 2 ^ (p - 1)) := by
        obtain ⟨k, rfl⟩ : ∃ k, p = k + 1 := ⟨p - 1, by omega⟩
        simp only [Nat.add_sub_cancel, one_div, inv_pow, pow_succ]; field_simp
    _ ≤ (1 / 2) ^ p * |x| := by
        rw [quantum_mul' hp]; exact mul_le_mul_of_nonneg_left (log_le hx) (by positivity)

lemma round_mono' {x y : ℝ} (h : x ≤ y) : round x ≤ round y := by
  rw [round_eq, round_eq]; exact Int.floor_mono (by linarith)

/-- positive numbers stay inside their closed binade -/
lemma nearest_pos_mem {p : ℕ} (hp : 1 ≤ p) {x : ℝ} (hx : 0 < x) :
    (2 : ℝ) ^ Int.log 2 |x| ≤ nearest p x ∧ nearest p x ≤ (2 : ℝ) ^ (Int.log 2 |x| + 1) := by
  have hq := quantum_pos p x
  have ha : |x| = x := abs_of_pos hx
  constructor
  · rw [← quantum_mul' hp, nearest, mul_comm]
    refine mul_le_mul_of_nonneg_right ?_ hq.le
    have : (2 : ℤ) ^ (p - 1) = round ((2 : ℝ) ^ (p - 1)) := by
      have := (round_intCast (α := ℝ) ((2 : ℤ) ^ (p - 1))).symm; push_cast at this; exact this
    have h2 : round ((2 : ℝ) ^ (p - 1)) ≤ round (x / quantum p x) := round_mono' (by
      rw [le_div_iff₀ hq, mul_comm, quantum_mul' hp, ← ha]; simpa using log_le hx.ne')
    rw [← this] at h2; exact_mod_cast h2
  · rw [← quantum_mul, nearest, mul_comm (quantum p x)]
    refine mul_le_mul_of_nonneg_right ?_ hq.le
    have : (2 : ℤ) ^ p = round ((2 : ℝ) ^ p) := by
      have := (round_intCast (α := ℝ) ((2 : ℤ) ^ p)).symm; push_cast at this; exact this
    have h2 : round (x / quantum p x) ≤ round ((2 : ℝ) ^ p) := round_mono' (by
      rw [div_le_iff₀ hq, mul_comm, quantum_mul]; have := lt_log x; rw [ha] at this ⊢; exact this.le)
    rw [← this] at h2; exact_mod_cast h2

lemma nearest_neg_mem {p : ℕ} (hp : 1 ≤ p) {x : ℝ} (hx : x < 0) :
    nearest p x ≤ -(2 : ℝ) ^ Int.log 2 |x| ∧ -(2 : ℝ) ^ (Int.log 2 |x| + 1) ≤ nearest p x := by
  have hq := quantum_pos p x
  have ha : |x| = -x := abs_of_neg hx
  constructor
  · rw [← quantum_mul' hp, nearest, mul_comm (quantum p x), ← neg_mul]
    refine mul_le_mul_of_nonneg_right ?_ hq.le
    have : -(2 : ℤ) ^ (p - 1) = round (-(2 : ℝ) ^ (p - 1)) := by
      have := (round_intCast (α := ℝ) (-(2 : ℤ) ^ (p - 1))).symm; push_cast at this; exact this
    have h2 : round (x / quantum p x) ≤ round (-(2 : ℝ) ^ (p - 1)) := round_mono' (by
      rw [div_le_iff₀ hq, neg_mul, mul_comm, quantum_mul' hp]; have := log_le hx.ne; linarith)
    rw [← this] at h2; exact_mod_cast h2
  · rw [← quantum_mul, nearest, mul_comm (quantum p x), ← neg_mul]
    refine mul_le_mul_of_nonneg_right ?_ hq.le
    have : -(2 : ℤ) ^ p = round (-(2 : ℝ) ^ p) := by
      have := (round_intCast (α := ℝ) (-(2 : ℤ) ^ p)).symm; push_cast at this; exact this
    have h2 : round (-(2 : ℝ) ^ p) ≤ round (x / quantum p x) := round_mono' (by
      rw [le_div_iff₀ hq, neg_mul, mul_comm, quantum_mul]; have := lt_log x; linarith)
    rw [← this] at h2; exact_mod_cast h2

lemma nearest_same {p : ℕ} {x y : ℝ} (hxy : x ≤ y) (h : Int.log 2 |x| = Int.log 2 |y|) : nearest p x ≤ nearest p y := by
  have e : quantum p x = quantum p y := by rw [quantum, quantum, h]
  have hq := quantum_pos p y
  rw [nearest, nearest, e]
  refine mul_le_mul_of_nonneg_right ?_ hq.le
  exact_mod_cast round_mono' (div_le_div_of_nonneg_right hxy hq.le)

lemma nearest_mono {p : ℕ} (hp : 1 ≤ p) : Monotone (nearest p) := by
  intro x y hxy
  have two : (1 : ℝ) ≤ 2 := by norm_num
  rcases lt_trichotomy x 0 with hx | hx | hx
  · have hx1 := nearest_neg_mem hp hx
    have hxn : nearest p x ≤ 0 := hx1.1.trans (neg_nonpos.mpr (zpow_pos (by norm_num) _).le)
    rcases lt_trichotomy y 0 with hy | hy | hy
    · have hy1 := nearest_neg_mem hp hy
      have hl : Int.log 2 |y| ≤ Int.log 2 |x| :=
        Int.log_mono_right (abs_pos.mpr hy.ne) (by rw [abs_of_neg hx, abs_of_neg hy]; linarith)
      rcases hl.eq_or_lt with h | h
      · exact nearest_same hxy h.symm
      · have := zpow_le_zpow_right₀ two (show Int.log 2 |y| + 1 ≤ Int.log 2 |x| by omega)
        linarith [hx1.1, hy1.2]
    · rw [hy, nearest_zero]; exact hxn
    · exact hxn.trans (le_trans (zpow_pos (by norm_num) _).le (nearest_pos_mem hp hy).1)
  · subst hx
    rw [nearest_zero]
    rcases hxy.eq_or_lt with h | h
    · rw [← h, nearest_zero]
    · exact le_trans (zpow_pos (by norm_num) _).le (nearest_pos_mem hp h).1
  · have hy : 0 < y := hx.trans_le hxy
    have hl : Int.log 2 |x| ≤ Int.log 2 |y| :=
      Int.log_mono_right (abs_pos.mpr hx.ne') (by rwa [abs_of_pos hx, abs_of_pos hy])
    rcases hl.eq_or_lt with h | h
    · exact nearest_same hxy h
    · have := zpow_le_zpow_right₀ two (show Int.log 2 |x| + 1 ≤ Int.log 2 |y| by omega)
      linarith [(nearest_pos_mem hp hx).2, (nearest_pos_mem hp hy).1]

lemma nearest_idem {p : ℕ} (hp : 1 ≤ p) (x : ℝ) : nearest p (nearest p x) = nearest p x := by
  rcases eq_or_ne x 0 with rfl | hx
  · simp [nearest_zero]
  have h2 : (0 : ℝ) < 2 := by norm_num
  -- bounds on |r|
  have hb : (2 : ℝ) ^ Int.log 2 |x| ≤ |nearest p x| ∧ |nearest p x| ≤ (2 : ℝ) ^ (Int.log 2 |x| + 1) := by
    rcases lt_or_gt_of_ne hx with h | h
    · have := nearest_neg_mem hp h
      have h0 : (0 : ℝ) < (2 : ℝ) ^ Int.log 2 |x| := zpow_pos h2 _
      rw [abs_of_neg (show nearest p x < 0 by linarith)]
      exact ⟨by linarith, by linarith⟩
    · have := nearest_pos_mem hp h
      have h0 : (0 : ℝ) < (2 : ℝ) ^ Int.log 2 |x| := zpow_pos h2 _
      rw [abs_of_pos (show 0 < nearest p x by linarith)]
      exact this
  have hr0 : 0 < |nearest p x| := lt_of_lt_of_le (zpow_pos h2 _) hb.1
  set r := nearest p x with hr
  have hint : ∃ m : ℤ, r / quantum p r = m := by
    rcases hb.2.eq_or_lt with h | h
    · have hl : Int.log 2 |r| = Int.log 2 |x| + 1 := by
        rw [h]; have := Int.log_zpow (R := ℝ) (b := 2) (by norm_num) (Int.log 2 |x| + 1); exact_mod_cast this
      have hq : quantum p r * 2 ^ (p - 1) = |r| := by rw [quantum_mul' hp, hl, h]
      have hqp := quantum_pos p r
      rcases abs_choice r with hs | hs
      · refine ⟨2 ^ (p - 1), ?_⟩
        rw [div_eq_iff hqp.ne']; push_cast; rw [mul_comm, hq, hs]
      · refine ⟨-2 ^ (p - 1), ?_⟩
        rw [div_eq_iff hqp.ne']; push_cast; rw [neg_mul, mul_comm, hq, hs]; ring
    · have hl : Int.log 2 |r| = Int.log 2 |x| := by
        apply le_antisymm
        · have : Int.log 2 |r| < Int.log 2 |x| + 1 := by
            rw [← Int.lt_zpow_iff_log_lt (by norm_num) hr0]; exact_mod_cast h
          omega
        · rw [← Int.zpow_le_iff_le_log (by norm_num) hr0]; exact_mod_cast hb.1
      have hq : quantum p r = quantum p x := by rw [quantum, quantum, hl]
      refine ⟨round (x / quantum p x), ?_⟩
      rw [hq, hr, nearest, mul_div_cancel_right₀ _ (quantum_pos p x).ne']
  obtain ⟨m, hm⟩ := hint
  have hq := quantum_pos p r
  conv_lhs => rw [nearest, hm, round_intCast, ← hm]
  exact div_mul_cancel₀ _ hq.ne'

/-- Round-to-nearest binary arithmetic with `p` significant bits: `p = 24` is float32, `p = 53` float64 (without over- and
underflow). -/
noncomputable def binary (p : ℕ) (hp : 1 ≤ p) : Arith where
  rnd x := {nearest p x}
  u := (1 / 2) ^ p
  u_nonneg := by positivity
  u_lt_one := pow_lt_one₀ (by norm_num) (by norm_num) (by omega)
  rel x r hr := by rw [Set.mem_singleton_iff] at hr; rw [hr]; exact nearest_rel hp x

lemma binary_monotone (p : ℕ) (hp : 1 ≤ p) : (binary p hp).Monotone := by
  rintro x y r rfl s rfl h
  exact nearest_mono hp h

lemma binary_closed (p : ℕ) (hp : 1 ≤ p) : (binary p hp).Closed := by
  rintro x r rfl
  show ({nearest p (nearest p x)} : Set ℝ) = _
  rw [nearest_idem hp]

end Dsps.Lemmas
