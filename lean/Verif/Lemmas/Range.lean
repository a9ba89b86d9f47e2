import Mathlib.Analysis.Complex.ExponentialBounds
import Mathlib.Tactic.Linarith
import Mathlib.Tactic.Positivity
import Verif.Range

/-! Lemmas on floats with a finite range. -/
namespace Dsps.Lemmas
open XF Range

variable {R : Range} {a b : Ranged R} {y z A B : ℝ}

/-! ### nan and overflow -/

theorem fit_nan : R.fit nan = nan := rfl
theorem fit_inf (s : Bool) : R.fit (inf s) = inf s := rfl
theorem fit_zero : R.fit (fin 0) = fin 0 := by
  simp [Range.fit, R.tiny_pos, XF.zeroOf, not_lt.2 (zero_le_one.trans R.max_ge)]
theorem fit_over (h : R.max < y) : R.fit (fin y) = inf false := by
  have h0 : 0 < y := lt_of_lt_of_le zero_lt_one (R.max_ge.trans h.le)
  simp [Range.fit, abs_of_pos h0, h, h0.le]

/-- a not-a-number -/
abbrev nanR (R : Range) : Ranged R := ⟨nan⟩

theorem nan_addR (b : Ranged R) : nanR R + b = nanR R := by show (⟨R.fit (nan + b.x)⟩ : Ranged R) = _; rw [nan_add]; rfl
theorem add_nanR (a : Ranged R) : a + nanR R = nanR R := by show (⟨R.fit (a.x + nan)⟩ : Ranged R) = _; rw [add_nan]; rfl
theorem nan_mulR (b : Ranged R) : nanR R * b = nanR R := by show (⟨R.fit (nan * b.x)⟩ : Ranged R) = _; rw [nan_mul]; rfl
theorem mul_nanR (a : Ranged R) : a * nanR R = nanR R := by show (⟨R.fit (a.x * nan)⟩ : Ranged R) = _; rw [mul_nan]; rfl
theorem nan_divR (b : Ranged R) : nanR R / b = nanR R := by show (⟨R.fit (nan / b.x)⟩ : Ranged R) = _; rw [nan_div]; rfl
theorem neg_nanR : -nanR R = nanR R := rfl

/-- zero times infinity, and anything times zero times infinity -/
theorem mul_zero_inf {w u : Ranged R} (hw : Rep w.x 0) (hu : ∃ s, u.x = inf s) (c : Ranged R) : c * w * u = nanR R := by
  obtain ⟨s, hs⟩ := hu
  have h1 : (c * w).x = nan ∨ Rep (c * w).x 0 := by
    show R.fit (c.x * w.x) = nan ∨ Rep (R.fit (c.x * w.x)) 0
    rcases hc : c.x with _ | t | _ | x
    · left; rw [nan_mul]; rfl
    · left; rw [hw.inf_mul_zero]; rfl
    · right
      have := (Rep.nzero.mul hw)
      rw [zero_mul] at this
      rcases this with h | ⟨h, -⟩ <;> rw [h]
      · rw [fit_zero]; exact Rep.fin 0
      · exact Rep.nzero
    · right
      have := ((Rep.fin x).mul hw)
      rw [mul_zero] at this
      rcases this with h | ⟨h, -⟩ <;> rw [h]
      · rw [fit_zero]; exact Rep.fin 0
      · exact Rep.nzero
  show (⟨R.fit ((c * w).x * u.x)⟩ : Ranged R) = _
  rw [hs]
  rcases h1 with h | h
  · rw [h, nan_mul]; rfl
  · rw [h.zero_mul_inf]; rfl

/-! ### Not finite -/

/-- infinite or nan -/
def Bad (a : Ranged R) : Prop := a.x = nan ∨ ∃ s, a.x = inf s

theorem Bad.not_finite (h : Bad a) : ¬ IsFinite a.x := by
  rintro ⟨y, hy⟩
  rcases h with h | ⟨s, h⟩ <;> rw [h] at hy <;> rcases hy with e | ⟨e, -⟩ <;> cases e

theorem Bad.neg (h : Bad a) : Bad (-a) := by
  rcases h with h | ⟨s, h⟩
  · left; show -a.x = nan; rw [h]; rfl
  · right; exact ⟨!s, by show -a.x = _; rw [h]; rfl⟩

theorem bad_fit {c : XF} (h : c = nan ∨ ∃ s, c = inf s) : Bad (⟨R.fit c⟩ : Ranged R) := by
  rcases h with h | ⟨s, h⟩
  · left; rw [h]; rfl
  · right; exact ⟨s, by rw [h]; rfl⟩

theorem Bad.add_left (h : Bad a) (b : Ranged R) : Bad (a + b) := by
  refine bad_fit ?_
  rcases h with h | ⟨s, h⟩ <;> rw [h]
  · left; exact nan_add _
  · rcases hb : b.x with _ | t | _ | x
    · left; rfl
    · show (if s = t then inf s else nan) = nan ∨ ∃ r, (if s = t then inf s else nan) = inf r
      split_ifs
      · right; exact ⟨s, rfl⟩
      · left; rfl
    · right; exact ⟨s, rfl⟩
    · right; exact ⟨s, rfl⟩

theorem Bad.add_right (h : Bad b) (a : Ranged R) : Bad (a + b) := by
  refine bad_fit ?_
  rcases h with h | ⟨s, h⟩ <;> rw [h]
  · left; exact add_nan _
  · rcases hb : a.x with _ | t | _ | x
    · left; rfl
    · show (if t = s then inf t else nan) = nan ∨ ∃ r, (if t = s then inf t else nan) = inf r
      split_ifs
      · right; exact ⟨t, rfl⟩
      · left; rfl
    · right; exact ⟨s, rfl⟩
    · right; exact ⟨s, rfl⟩

theorem Bad.mul_left (h : Bad a) (b : Ranged R) : Bad (a * b) := by
  refine bad_fit ?_
  rcases h with h | ⟨s, h⟩ <;> rw [h]
  · left; exact nan_mul _
  · rcases hb : b.x with _ | t | _ | x
    · left; rfl
    · right; exact ⟨_, rfl⟩
    · left; exact if_pos rfl
    · by_cases hx : x = 0
      · left; exact if_pos hx
      · right; exact ⟨_, if_neg hx⟩

theorem Bad.mul_right (h : Bad b) (a : Ranged R) : Bad (a * b) := by
  refine bad_fit ?_
  rcases h with h | ⟨s, h⟩ <;> rw [h]
  · left; exact mul_nan _
  · rcases hb : a.x with _ | t | _ | x
    · left; rfl
    · right; exact ⟨_, rfl⟩
    · left; exact if_pos rfl
    · by_cases hx : x = 0
      · left; exact if_pos hx
      · right; exact ⟨_, if_neg hx⟩

/-! ### Exact results -/

/-- The float is the number `y`, which is zero or in the range. -/
def Is (a : Ranged R) (y : ℝ) : Prop := Rep a.x y ∧ (y = 0 ∨ R.In y)

theorem rep_fit {c : XF} (h : Rep c y) (hy : y = 0 ∨ R.In y) : Rep (R.fit c) y := by
  rcases h with rfl | ⟨rfl, rfl⟩
  · rcases hy with rfl | hy
    · rw [fit_zero]; exact Rep.fin 0
    · rw [R.fit_in hy]; exact Rep.fin y
  · exact Rep.nzero

/-- a number below the range is flushed to zero -/
theorem rep_fit_under {c : XF} (h : Rep c y) (hy : |y| < R.tiny) : Rep (R.fit c) 0 := by
  have hm : ¬ R.max < |y| := not_lt.2 (hy.le.trans (R.tiny_le.trans R.max_ge))
  rcases h with rfl | ⟨rfl, rfl⟩
  · simp only [Range.fit, if_neg hm, if_pos hy]; exact rep_zeroOf _
  · exact Rep.nzero

/-- `1 / (u * u)` when the square underflows -/
theorem bad_inv_sq {u : Ranged R} (hu : ∃ z, Rep u.x z ∧ z * z < R.tiny) : Bad (Flt.lit 1 / (u * u)) := by
  obtain ⟨z, hz, ht⟩ := hu
  have h0 : Rep (u * u).x 0 := rep_fit_under (hz.mul hz) (by rwa [abs_mul_self])
  have h1 : Rep (Flt.lit 1 : Ranged R).x 1 := rep_fit (Rep.fin 1) (Or.inr ⟨by rw [abs_one]; exact R.tiny_le, by rw [abs_one]; exact R.max_ge⟩)
  refine bad_fit (Or.inr ?_)
  rcases h1 with h | ⟨-, h⟩
  · rw [h]
    rcases h0 with h' | ⟨h', -⟩ <;> rw [h']
    · exact ⟨_, by show (if (0:ℝ) = 0 then (if (1:ℝ) = 0 then nan else _) else _) = _; rw [if_pos rfl, if_neg one_ne_zero]⟩
    · exact ⟨_, by show (if (0:ℝ) = 0 then (if (1:ℝ) = 0 then nan else _) else _) = _; rw [if_pos rfl, if_neg one_ne_zero]⟩
  · exact absurd h one_ne_zero

theorem in_neg (h : R.In y) : R.In (-y) := by unfold Range.In at *; rwa [abs_neg]

theorem is_lit (hy : y = 0 ∨ R.In y) : Is (Flt.lit y : Ranged R) y := ⟨rep_fit (Rep.fin y) hy, hy⟩
theorem Is.mul (ha : Is a y) (hb : Is b z) (h : y * z = 0 ∨ R.In (y * z)) : Is (a * b) (y * z) := ⟨rep_fit (ha.1.mul hb.1) h, h⟩
theorem Is.add (ha : Is a y) (hb : Is b z) (h : y + z = 0 ∨ R.In (y + z)) : Is (a + b) (y + z) := ⟨rep_fit (ha.1.add hb.1) h, h⟩
theorem Is.sub (ha : Is a y) (hb : Is b z) (h : y - z = 0 ∨ R.In (y - z)) : Is (a - b) (y - z) := ⟨rep_fit (ha.1.sub hb.1) h, h⟩
theorem Is.div (ha : Is a y) (hb : Is b z) (hz : z ≠ 0) (h : y / z = 0 ∨ R.In (y / z)) : Is (a / b) (y / z) :=
  ⟨rep_fit (ha.1.div hb.1 hz) h, h⟩
theorem Is.neg (ha : Is a y) : Is (-a) (-y) := ⟨ha.1.neg, ha.2.imp (fun h => by rw [h, neg_zero]) in_neg⟩
theorem Is.exp (ha : Is a y) (h : R.In (Real.exp y)) : Is (Flt.exp a) (Real.exp y) := by
  refine ⟨rep_fit ?_ (Or.inr h), Or.inr h⟩
  show Rep (XF.exp a.x) _
  rw [ha.1.exp]; exact Rep.fin _
theorem Is.log (ha : Is a y) (hy : 0 < y) (h : R.In (Real.log y)) : Is (Flt.log a) (Real.log y) := by
  refine ⟨rep_fit ?_ (Or.inr h), Or.inr h⟩
  show Rep (XF.log a.x) _
  rw [ha.1.log hy]; exact Rep.fin _
theorem Is.congr (ha : Is a y) (h : y = z) : Is a z := h ▸ ha
theorem Is.add_zero (ha : Is a y) (hb : Is b 0) : Is (a + b) y := by
  have := ha.add hb (by rw [_root_.add_zero]; exact ha.2)
  rwa [_root_.add_zero] at this
theorem Is.zero_add (ha : Is a 0) (hb : Is b y) : Is (a + b) y := by
  have := ha.add hb (by rw [_root_.zero_add]; exact hb.2)
  rwa [_root_.zero_add] at this

/-! ### Bounded results -/

/-- The float is finite, of magnitude at most `A`. -/
def Bd (A : ℝ) (a : Ranged R) : Prop := ∃ y, Rep a.x y ∧ |y| ≤ A

theorem Bd.nonneg (h : Bd A a) : 0 ≤ A := by obtain ⟨y, -, h⟩ := h; exact (abs_nonneg y).trans h
theorem Bd.finite (h : Bd A a) : IsFinite a.x := by obtain ⟨y, h, -⟩ := h; exact ⟨y, h⟩
theorem Bd.mono (h : Bd A a) (hA : A ≤ B) : Bd B a := by obtain ⟨y, h, h'⟩ := h; exact ⟨y, h, h'.trans hA⟩
theorem Is.bd (h : Is a y) : Bd |y| a := ⟨y, h.1, le_rfl⟩

theorem bd_fit {c : XF} (h : Rep c y) (hy : |y| ≤ A) (hA : A ≤ R.max) : Bd A (⟨R.fit c⟩ : Ranged R) := by
  rcases h with rfl | ⟨rfl, rfl⟩
  · simp only [Range.fit, if_neg (hy.trans hA).not_gt]
    split_ifs with h1
    · exact ⟨0, rep_zeroOf _, by rw [abs_zero]; exact (abs_nonneg y).trans hy⟩
    · exact ⟨y, Rep.fin y, hy⟩
  · exact ⟨0, Rep.nzero, hy⟩

theorem bd_lit (h : |y| ≤ R.max) : Bd |y| (Flt.lit y : Ranged R) := bd_fit (Rep.fin y) le_rfl h
theorem Bd.neg (h : Bd A a) : Bd A (-a) := by obtain ⟨y, h, h'⟩ := h; exact ⟨-y, h.neg, by rwa [abs_neg]⟩
theorem Bd.mul (ha : Bd A a) (hb : Bd B b) (h : A * B ≤ R.max) : Bd (A * B) (a * b) := by
  obtain ⟨y, hy, hA⟩ := ha
  obtain ⟨z, hz, hB⟩ := hb
  refine bd_fit (hy.mul hz) ?_ h
  rw [abs_mul]; exact mul_le_mul hA hB (abs_nonneg _) ((abs_nonneg y).trans hA)
theorem Bd.add (ha : Bd A a) (hb : Bd B b) (h : A + B ≤ R.max) : Bd (A + B) (a + b) := by
  obtain ⟨y, hy, hA⟩ := ha
  obtain ⟨z, hz, hB⟩ := hb
  exact bd_fit (hy.add hz) ((abs_add_le y z).trans (add_le_add hA hB)) h
theorem Bd.sub (ha : Bd A a) (hb : Bd B b) (h : A + B ≤ R.max) : Bd (A + B) (a - b) := by
  obtain ⟨y, hy, hA⟩ := ha
  obtain ⟨z, hz, hB⟩ := hb
  exact bd_fit (hy.sub hz) ((abs_sub y z).trans (add_le_add hA hB)) h
theorem Bd.div (ha : Bd A a) (hb : Is b z) (hz : z ≠ 0) (h : A / |z| ≤ R.max) : Bd (A / |z|) (a / b) := by
  obtain ⟨y, hy, hA⟩ := ha
  refine bd_fit (hy.div hb.1 hz) ?_ h
  rw [abs_div]; exact div_le_div_of_nonneg_right hA (abs_nonneg _)
/-- the exponential of a bounded number -/
theorem Bd.exp {L : ℝ} (ha : Rep a.x y) (hy : y ≤ L) (h : Real.exp L ≤ R.max) : Bd (Real.exp L) (Flt.exp a) := by
  refine bd_fit (y := Real.exp y) ?_ ?_ h
  · show Rep (XF.exp a.x) _
    rw [ha.exp]; exact Rep.fin _
  · rw [abs_of_pos (Real.exp_pos y)]; exact Real.exp_le_exp.2 hy

/-- the exponential of a bounded float -/
theorem Bd.exp' (ha : Bd A a) (h : Real.exp A ≤ R.max) : Bd (Real.exp A) (Flt.exp a) := by
  obtain ⟨y, hy, hA⟩ := ha
  exact Bd.exp hy ((le_abs_self y).trans hA) h
/-- the logarithm of a positive number -/
theorem Bd.log (ha : Rep a.x y) (h0 : 0 < y) (hy : |Real.log y| ≤ A) (hA : A ≤ R.max) : Bd A (Flt.log a) := by
  refine bd_fit (y := Real.log y) ?_ hy hA
  show Rep (XF.log a.x) _
  rw [ha.log h0]; exact Rep.fin _
/-- zero times a finite float -/
theorem zero_mul_bd (ha : Rep a.x 0) (hb : Bd B b) : Rep (a * b).x 0 := by
  obtain ⟨z, hz, -⟩ := hb
  have := ha.mul hz
  rw [zero_mul] at this
  exact rep_fit this (Or.inl rfl)
theorem bd_mul_zero (ha : Bd A a) (hb : Rep b.x 0) : Rep (a * b).x 0 := by
  obtain ⟨z, hz, -⟩ := ha
  have := hz.mul hb
  rw [mul_zero] at this
  exact rep_fit this (Or.inl rfl)
theorem zero_div_is (ha : Rep a.x 0) (hb : Is b z) (h : z ≠ 0) : Rep (a / b).x 0 := by
  have := ha.div hb.1 h
  rw [zero_div] at this
  exact rep_fit this (Or.inl rfl)

/-- products and quotients of numbers in the range -/
theorem mul_fit {u w : XF} (hu : u = fin y) (hw : w = fin z) (h : y * z ≠ 0) : u * w = fin (y * z) := by
  rw [hu, hw]
  rcases (Rep.fin y).mul (Rep.fin z) with e | ⟨-, e⟩
  · exact e
  · exact absurd e h
theorem div_fit {u w : XF} (hu : u = fin y) (hw : w = fin z) (hz : z ≠ 0) (h : y / z ≠ 0) : u / w = fin (y / z) := by
  rw [hu, hw]
  rcases (Rep.fin y).div (Rep.fin z) hz with e | ⟨-, e⟩
  · exact e
  · exact absurd e h

/-- `1 / (u * u)`, also when the square overflows -/
theorem bd_inv_sq {u : Ranged R} (hu : Is u z) (hz : z ≠ 0) (h1 : R.tiny ≤ z * z) (h2 : 1 / (z * z) ≤ R.max) :
    Bd (1 / (z * z)) (Flt.lit 1 / (u * u)) := by
  have hpos : 0 < z * z := lt_of_lt_of_le R.tiny_pos h1
  have hl : Rep (Flt.lit 1 : Ranged R).x 1 := (is_lit (Or.inr ⟨by rw [abs_one]; exact R.tiny_le, by rw [abs_one]; exact R.max_ge⟩)).1
  by_cases hm : z * z ≤ R.max
  · have := (Bd.div (a := Flt.lit 1) (A := 1) ⟨1, hl, by rw [abs_one]⟩
      (hu.mul hu (Or.inr ⟨by rwa [abs_of_pos hpos], by rwa [abs_of_pos hpos]⟩)) hpos.ne' (by rwa [abs_of_pos hpos]))
    rwa [abs_of_pos hpos] at this
  · push Not at hm
    have hi : (u * u).x = inf false := by
      show R.fit (u.x * u.x) = _
      have hr := hu.1.mul hu.1
      rcases hr with h | ⟨-, h⟩
      · rw [h, fit_over hm]
      · exact absurd h hpos.ne'
    refine ⟨0, ?_, by rw [abs_zero]; positivity⟩
    show Rep (R.fit ((Flt.lit 1 : Ranged R).x / (u * u).x)) 0
    rw [hi]
    exact rep_fit (hl.div_inf false) (Or.inl rfl)

/-! ### Powers of ten -/

/-- the number lies between two powers of ten -/
def Tens (m n : ℤ) (y : ℝ) : Prop := (10:ℝ) ^ m ≤ y ∧ y ≤ (10:ℝ) ^ n

theorem Tens.pos {m n : ℤ} (h : Tens m n y) : 0 < y := lt_of_lt_of_le (by positivity) h.1
theorem Tens.mul {m n p q : ℤ} (h : Tens m n y) (h' : Tens p q z) : Tens (m + p) (n + q) (y * z) := by
  constructor
  · rw [zpow_add₀ (by norm_num)]; exact mul_le_mul h.1 h'.1 (by positivity) h.pos.le
  · rw [zpow_add₀ (by norm_num)]; exact mul_le_mul h.2 h'.2 h'.pos.le (by positivity)
theorem Tens.div {m n p q : ℤ} (h : Tens m n y) (h' : Tens p q z) : Tens (m - q) (n - p) (y / z) := by
  constructor
  · rw [zpow_sub₀ (by norm_num)]; exact div_le_div₀ h.pos.le h.1 h'.pos h'.2
  · rw [zpow_sub₀ (by norm_num)]; exact div_le_div₀ (by positivity) h.2 (by positivity) h'.1
theorem Tens.mono {m n p q : ℤ} (h : Tens m n y) (h1 : p ≤ m) (h2 : n ≤ q) : Tens p q y :=
  ⟨(zpow_le_zpow_right₀ (by norm_num) h1).trans h.1, h.2.trans (zpow_le_zpow_right₀ (by norm_num) h2)⟩

theorem float64_tiny_le : float64.tiny ≤ (10:ℝ) ^ (-306:ℤ) := by
  show (2⁻¹:ℝ) ^ 1022 ≤ _
  rw [zpow_neg, inv_pow]
  refine inv_anti₀ (by positivity) ?_
  have h : ((10:ℝ) ^ (3:ℕ)) ^ (102:ℕ) ≤ ((2:ℝ) ^ (10:ℕ)) ^ (102:ℕ) := pow_le_pow_left₀ (by norm_num) (by norm_num) _
  rw [← pow_mul, ← pow_mul] at h
  calc (10:ℝ) ^ (306:ℤ) = (10:ℝ) ^ (306:ℕ) := by rw [← zpow_natCast]; rfl
    _ ≤ (2:ℝ) ^ 1020 := h
    _ ≤ (2:ℝ) ^ 1022 := pow_le_pow_right₀ (by norm_num) (by norm_num)

theorem float64_max_ge : (10:ℝ) ^ (306:ℤ) ≤ float64.max := by
  have h : ((10:ℝ) ^ (3:ℕ)) ^ (102:ℕ) ≤ ((2:ℝ) ^ (10:ℕ)) ^ (102:ℕ) := pow_le_pow_left₀ (by norm_num) (by norm_num) _
  rw [← pow_mul, ← pow_mul] at h
  calc (10:ℝ) ^ (306:ℤ) = (10:ℝ) ^ (306:ℕ) := by rw [← zpow_natCast]; rfl
    _ ≤ (2:ℝ) ^ 1020 := h
    _ ≤ 1 * (2:ℝ) ^ 1023 := by rw [one_mul]; exact pow_le_pow_right₀ (by norm_num) (by norm_num)
    _ ≤ (2 - 2⁻¹ ^ 52) * 2 ^ 1023 := mul_le_mul_of_nonneg_right (by norm_num) (by positivity)

theorem Tens.in64 {m n : ℤ} (h : Tens m n y) (h1 : -306 ≤ m) (h2 : n ≤ 306) : float64.In y := by
  unfold Range.In
  rw [abs_of_pos h.pos]
  exact ⟨float64_tiny_le.trans ((zpow_le_zpow_right₀ (by norm_num) h1).trans h.1),
    (h.2.trans (zpow_le_zpow_right₀ (by norm_num) h2)).trans float64_max_ge⟩

theorem bd_lit64 (h : |y| ≤ A) (hA : A ≤ 10 ^ (100:ℤ)) : Bd A (Flt.lit y : Ranged float64) :=
  (bd_lit (h.trans (hA.trans ((zpow_le_zpow_right₀ (by norm_num) (by norm_num)).trans float64_max_ge)))).mono h

/-- the largest exponent: `exp` overflows above 709.783 and does not overflow up to 709.782 -/
theorem float64_exp_le : Real.exp 709.782 ≤ float64.max := by
  have h2 := Real.log_two_gt_d9
  have h3 : float64.max = Real.exp (Real.log (2 - 2⁻¹ ^ 52) + 1023 * Real.log 2) := by
    rw [Real.exp_add, Real.exp_log (by norm_num), mul_comm (1023:ℝ), ← Real.rpow_def_of_pos (by norm_num)]
    show (2 - 2⁻¹ ^ 52) * 2 ^ 1023 = (2 - 2⁻¹ ^ 52) * (2:ℝ) ^ (1023:ℝ)
    congr 1
    exact_mod_cast (Real.rpow_natCast 2 1023).symm
  rw [h3]
  refine Real.exp_le_exp.2 ?_
  have h4 : Real.log 2 - 2⁻¹ ^ 52 ≤ Real.log (2 - 2⁻¹ ^ 52) := by
    have e : (2:ℝ) = (2 - 2⁻¹ ^ 52) * (2 / (2 - 2⁻¹ ^ 52)) := by rw [mul_div_cancel₀]; norm_num
    have h5 : Real.log (2 / (2 - 2⁻¹ ^ 52)) ≤ 2 / (2 - 2⁻¹ ^ 52) - 1 := Real.log_le_sub_one_of_pos (by norm_num)
    have h6 : Real.log 2 = Real.log (2 - 2⁻¹ ^ 52) + Real.log (2 / (2 - 2⁻¹ ^ 52)) := by
      rw [← Real.log_mul (by norm_num) (by norm_num), ← e]
    have h7 : (2:ℝ) / (2 - 2⁻¹ ^ 52) - 1 ≤ 2⁻¹ ^ 52 := by norm_num
    linarith
  norm_num at h4 ⊢
  linarith

theorem float64_exp_gt {x : ℝ} (hx : 709.783 ≤ x) : float64.max < Real.exp x := by
  have h2 := Real.log_two_lt_d9
  have h1 : float64.max < (2:ℝ) ^ (1024:ℕ) := by
    show (2 - 2⁻¹ ^ 52) * (2:ℝ) ^ 1023 < 2 ^ 1024
    rw [pow_succ (2:ℝ) 1023, mul_comm ((2:ℝ) ^ 1023) 2]
    exact mul_lt_mul_of_pos_right (by norm_num) (by positivity)
  refine h1.trans_le ?_
  have h3 : (2:ℝ) ^ (1024:ℕ) = Real.exp (Real.log 2 * 1024) := by
    rw [← Real.rpow_def_of_pos (by norm_num), ← Real.rpow_natCast]; norm_num
  rw [h3]
  refine Real.exp_le_exp.2 (le_trans ?_ hx)
  norm_num at h2 ⊢; linarith

end Dsps.Lemmas
