import Mathlib.Analysis.SpecialFunctions.Sqrt
import Mathlib.Tactic.Positivity
import Mathlib.Tactic.Linarith
import Mathlib.Tactic.NormNum
import Mathlib.Tactic.Ring
import Mathlib.Tactic.FieldSimp
import Mathlib.Algebra.BigOperators.Group.Finset.Basic
import Mathlib.Algebra.Order.BigOperators.Group.Finset

/-! A verified interval checker: exact integer arithmetic, evaluated by the kernel, that bounds a sum of algebraic
functions of two real variables from below on a rectangle, and a bisection that covers a rectangle with such rectangles.
Used for the comoving distance in flat LCDM (`Verif.Lemmas.LcdmComoving`). Nothing here models dsps code. -/
namespace Dsps.Lemmas.Box
open scoped BigOperators

/-! ### the functions -/

/-- `E²` at `1 + x` with `s³ = Om0`, `q = s x` -/
noncomputable def EP (s q : ℝ) : ℝ := 1 + 3 * s ^ 2 * q + 3 * s * q ^ 2 + q ^ 3
/-- `1/E` -/
noncomputable def X (s q : ℝ) : ℝ := 1 / Real.sqrt (EP s q)
/-- numerator of `d/dx (x/E)` over `E³` -/
noncomputable def num (s q : ℝ) : ℝ := 1 + 3 / 2 * s ^ 2 * q - q ^ 3 / 2
/-- `d/dx (x/E)` -/
noncomputable def hh (s q : ℝ) : ℝ := num s q * X s q ^ 3

theorem EP_pos {s q : ℝ} (hs : 0 ≤ s) (hq : 0 ≤ q) : 0 < EP s q := by unfold EP; positivity
theorem X_pos {s q : ℝ} (hs : 0 ≤ s) (hq : 0 ≤ q) : 0 < X s q := one_div_pos.2 (Real.sqrt_pos.2 (EP_pos hs hq))

theorem EP_mono {s q s' q' : ℝ} (hs : 0 ≤ s) (hq : 0 ≤ q) (h1 : s ≤ s') (h2 : q ≤ q') : EP s q ≤ EP s' q' := by
  have hq' : 0 ≤ q' := hq.trans h2
  have hs' : 0 ≤ s' := hs.trans h1
  unfold EP; gcongr

theorem X_anti {s q s' q' : ℝ} (hs : 0 ≤ s) (hq : 0 ≤ q) (h1 : s ≤ s') (h2 : q ≤ q') : X s' q' ≤ X s q := by
  unfold X
  exact one_div_le_one_div_of_le (Real.sqrt_pos.2 (EP_pos hs hq)) (Real.sqrt_le_sqrt (EP_mono hs hq h1 h2))

theorem le_X {s q u : ℝ} (hs : 0 ≤ s) (hq : 0 ≤ q) (h : u ^ 2 * EP s q ≤ 1) : u ≤ X s q := by
  have hp := EP_pos hs hq
  unfold X
  rw [le_div_iff₀ (Real.sqrt_pos.2 hp)]
  apply le_of_sq_le_sq _ (by norm_num)
  rw [mul_pow, Real.sq_sqrt hp.le]; simpa using h

theorem X_le {s q u : ℝ} (hs : 0 ≤ s) (hq : 0 ≤ q) (hu : 0 ≤ u) (h : 1 ≤ u ^ 2 * EP s q) : X s q ≤ u := by
  have hp := EP_pos hs hq
  unfold X
  rw [div_le_iff₀ (Real.sqrt_pos.2 hp)]
  apply le_of_sq_le_sq _ (mul_nonneg hu (Real.sqrt_nonneg _))
  rw [mul_pow, Real.sq_sqrt hp.le]; simpa using h

/-! ### the checker -/

/-- evaluates its first argument before going on (kernel reduction is lazy) -/
def force (n : Nat) (k : Nat → Bool) : Bool := match n with | 0 => k 0 | m + 1 => k (m + 1)

theorem force_eq (n : Nat) (k : Nat → Bool) : force n k = k n := by cases n <;> rfl

def newton (n : Nat) : Nat → Nat → Nat
  | 0, x => x
  | f + 1, x => newton n f ((x + n / x) / 2)

/-- an approximate square root; nothing is proved about it, its users check what they need -/
def isqRaw (n : Nat) : Nat := newton n 6 (2 ^ (Nat.log2 n / 2 + 1))

def withLo (n : Nat) (k : Nat → Bool) : Bool :=
  force (isqRaw n) fun x =>
    bif Nat.ble (x * x) n then k x else bif Nat.ble ((x - 1) * (x - 1)) n then k (x - 1) else k 0

def withHi (n : Nat) (k : Nat → Bool) : Bool :=
  force (isqRaw n) fun x =>
    bif Nat.blt n (x * x) then k x else bif Nat.blt n ((x + 1) * (x + 1)) then k (x + 1) else k (n + 1)

theorem withLo_spec {n : Nat} {k : Nat → Bool} (h : withLo n k = true) : ∃ u, u * u ≤ n ∧ k u = true := by
  unfold withLo at h
  rw [force_eq] at h
  simp only [Bool.cond_eq_ite] at h
  split_ifs at h with h1 h2
  · exact ⟨_, Nat.le_of_ble_eq_true h1, h⟩
  · exact ⟨_, Nat.le_of_ble_eq_true h2, h⟩
  · exact ⟨0, by simp, h⟩

theorem withHi_spec {n : Nat} {k : Nat → Bool} (h : withHi n k = true) : ∃ u, n < u * u ∧ k u = true := by
  unfold withHi at h
  rw [force_eq] at h
  simp only [Bool.cond_eq_ite] at h
  split_ifs at h with h1 h2
  · exact ⟨_, by simpa [Nat.blt_eq] using h1, h⟩
  · exact ⟨_, by simpa [Nat.blt_eq] using h2, h⟩
  · exact ⟨n + 1, by nlinarith, h⟩

/-- `2^20`, the denominator of the corners -/
def D : Nat := 1048576
/-- `2^60` -/
def D3 : Nat := 1152921504606846976
/-- `2^26`, the denominator of the values -/
def PP : Nat := 67108864
/-- `2^112` -/
def KK : Nat := 5192296858534827628530496329220096
/-- `2^113` -/
def W : Nat := 10384593717069655257060992658440192
def E2 (S Q : Nat) : Nat := D3 + 3 * S * S * Q + 3 * S * Q * Q + Q * Q * Q

def loop (S0 S1 Y0 Y1 : Nat) (fin : Nat → Nat → Bool) : Nat → Nat → Nat → Bool
  | 0, pos, neg => fin pos neg
  | k + 1, pos, neg =>
    force ((k + 1) * Y0) fun A => force ((k + 1) * Y1) fun B =>
    force (2 * D3 + 3 * S0 * S0 * A) fun n1 => force (B * B * B) fun n2 =>
    bif Nat.ble n2 n1 then
      withLo (KK / E2 S1 B) fun U => force (pos + (n1 - n2) * (U * U * U) / W) fun pos' =>
        loop S0 S1 Y0 Y1 fin k pos' neg
    else
      withHi (KK / E2 S0 A) fun V => force (neg + ((n2 - n1) * (V * V * V) / W + 1)) fun neg' =>
        loop S0 S1 Y0 Y1 fin k pos neg'

def leaf (S0 S1 Y0 Y1 : Nat) : Bool :=
  force ((12 * D / Y0 + 2) / 2) fun j1 =>
  force (2 * j1 + 1) fun c =>
  bif Nat.ble (12 * D) (c * Y0) then
    bif Nat.ble j1 200 then
    loop S0 S1 Y0 Y1 (fun pos neg =>
      withHi (KK / E2 S0 (c * Y0 / 2)) fun V => withLo (KK / E2 S1 (255 * Y1)) fun U =>
        Nat.blt (neg + (c * V / 2 + 1)) (pos + 255 * U)) j1 33554432 0
    else false
  else false

def go : Nat → Nat → Nat → Nat → Nat → Bool
  | 0, _, _, _, _ => false
  | f + 1, S0, S1, Y0, Y1 =>
    bif leaf S0 S1 Y0 Y1 then true
    else bif Nat.blt (8 * (Y1 - Y0)) (S1 - S0) then
      force ((S0 + S1) / 2) fun m => bif go f S0 m Y0 Y1 then go f m S1 Y0 Y1 else false
    else
      force ((Y0 + Y1) / 2) fun m => bif go f S0 S1 Y0 m then go f S0 S1 m Y1 else false

/-! ### its correctness -/

theorem D_pos : (0 : ℝ) < (D : ℝ) := by norm_num [D]
theorem PP_pos : (0 : ℝ) < (PP : ℝ) := by norm_num [PP]
theorem D3_eq : ((D3 : ℕ) : ℝ) = (D : ℝ) ^ 3 := by norm_num [D3, D]
theorem KK_eq : ((KK : ℕ) : ℝ) = (D : ℝ) ^ 3 * (PP : ℝ) ^ 2 := by norm_num [KK, D, PP]
theorem W_eq : ((W : ℕ) : ℝ) = 2 * (D : ℝ) ^ 3 * (PP : ℝ) ^ 2 := by norm_num [W, D, PP]

theorem E2_eq (S Q : ℕ) : ((E2 S Q : ℕ) : ℝ) = (D : ℝ) ^ 3 * EP (S / D) (Q / D) := by
  unfold E2 EP
  have := D_pos.ne'
  push_cast
  rw [D3_eq]
  field_simp

theorem E2_pos (S Q : ℕ) : 0 < E2 S Q := by unfold E2 D3; positivity

theorem lo_X {S Q U : ℕ} (h : U * U ≤ KK / E2 S Q) : (U : ℝ) / PP ≤ X (S / D) (Q / D) := by
  have hD := D_pos
  have hP := PP_pos
  apply le_X (by positivity) (by positivity)
  have h1 : U * U * E2 S Q ≤ KK := (Nat.mul_le_mul_right _ h).trans (Nat.div_mul_le_self _ _)
  have h2 : ((U * U * E2 S Q : ℕ) : ℝ) ≤ (KK : ℝ) := by exact_mod_cast h1
  push_cast at h2
  rw [E2_eq, KK_eq] at h2
  rw [div_pow, div_mul_eq_mul_div, div_le_one (by positivity)]
  have h3 : (D : ℝ) ^ 3 * ((U : ℝ) ^ 2 * EP (S / D) (Q / D)) ≤ (D : ℝ) ^ 3 * (PP : ℝ) ^ 2 := by linarith
  exact le_of_mul_le_mul_left h3 (by positivity)

theorem hi_X {S Q V : ℕ} (h : KK / E2 S Q < V * V) : X (S / D) (Q / D) ≤ (V : ℝ) / PP := by
  have hD := D_pos
  have hP := PP_pos
  apply X_le (by positivity) (by positivity) (by positivity)
  have h1 : KK < V * V * E2 S Q := by
    have := (Nat.div_lt_iff_lt_mul (E2_pos S Q)).1 h
    exact this
  have h2 : ((KK : ℕ) : ℝ) ≤ ((V * V * E2 S Q : ℕ) : ℝ) := by exact_mod_cast h1.le
  push_cast at h2
  rw [E2_eq, KK_eq] at h2
  rw [div_pow, div_mul_eq_mul_div, one_le_div (by positivity)]
  have h3 : (D : ℝ) ^ 3 * (PP : ℝ) ^ 2 ≤ (D : ℝ) ^ 3 * ((V : ℝ) ^ 2 * EP (S / D) (Q / D)) := by linarith
  exact le_of_mul_le_mul_left h3 (by positivity)

/-- the point `(s,y)` lies in the rectangle with the given corners -/
structure In (S0 S1 Y0 Y1 : ℕ) (s y : ℝ) : Prop where
  s0 : (S0 : ℝ) / D ≤ s
  s1 : s ≤ (S1 : ℝ) / D
  y0 : (Y0 : ℝ) / D ≤ y
  y1 : y ≤ (Y1 : ℝ) / D

theorem In.sn {S0 S1 Y0 Y1 : ℕ} {s y : ℝ} (h : In S0 S1 Y0 Y1 s y) : 0 ≤ s := by
  have := D_pos; exact le_trans (by positivity) h.s0
theorem In.yn {S0 S1 Y0 Y1 : ℕ} {s y : ℝ} (h : In S0 S1 Y0 Y1 s y) : 0 ≤ y := by
  have := D_pos; exact le_trans (by positivity) h.y0

theorem num_ge {S0 S1 Y0 Y1 k : ℕ} {s y : ℝ} (h : In S0 S1 Y0 Y1 s y) :
    (((2 * D3 + 3 * S0 * S0 * (k * Y0) : ℕ) : ℝ) - ((k * Y1 * (k * Y1) * (k * Y1) : ℕ) : ℝ)) / (2 * (D : ℝ) ^ 3)
      ≤ num s (k * y) := by
  have hD := D_pos
  have e : (((2 * D3 + 3 * S0 * S0 * (k * Y0) : ℕ) : ℝ) - ((k * Y1 * (k * Y1) * (k * Y1) : ℕ) : ℝ)) / (2 * (D : ℝ) ^ 3)
      = 1 + 3 / 2 * ((S0 : ℝ) / D) ^ 2 * (k * ((Y0 : ℝ) / D)) - (k * ((Y1 : ℝ) / D)) ^ 3 / 2 := by
    push_cast
    rw [D3_eq]
    field_simp
  rw [e]
  unfold num
  have h1 : 3 / 2 * ((S0 : ℝ) / D) ^ 2 * (k * ((Y0 : ℝ) / D)) ≤ 3 / 2 * s ^ 2 * (k * y) := by
    have := h.s0; have := h.y0; have := h.sn
    gcongr
  have h2 : (k * y) ^ 3 ≤ (k * ((Y1 : ℝ) / D)) ^ 3 := by
    have := h.y1; have := h.yn
    gcongr
  linarith

theorem term_pos {S0 S1 Y0 Y1 k U : ℕ} {s y : ℝ} (h : In S0 S1 Y0 Y1 s y)
    (hn : k * Y1 * (k * Y1) * (k * Y1) ≤ 2 * D3 + 3 * S0 * S0 * (k * Y0))
    (hU : U * U ≤ KK / E2 S1 (k * Y1)) :
    (((2 * D3 + 3 * S0 * S0 * (k * Y0) - k * Y1 * (k * Y1) * (k * Y1)) * (U * U * U) / W : ℕ) : ℝ) / PP
      ≤ hh s (k * y) := by
  have hD := D_pos
  have hP := PP_pos
  have h1 := num_ge (k := k) h
  rw [← Nat.cast_sub hn] at h1
  generalize 2 * D3 + 3 * S0 * S0 * (k * Y0) - k * Y1 * (k * Y1) * (k * Y1) = ν at *
  have h2 : (U : ℝ) / PP ≤ X s (k * y) := by
    refine (lo_X hU).trans ?_
    apply X_anti h.sn (mul_nonneg (by positivity) h.yn) h.s1
    have := h.y1
    push_cast
    rw [mul_div_assoc]; gcongr
  have h3 : ((ν * (U * U * U) / W : ℕ) : ℝ) ≤ (ν * (U * U * U) : ℝ) / W := by
    refine Nat.cast_div_le.trans (le_of_eq ?_); push_cast; rfl
  calc _ ≤ (ν * (U * U * U) : ℝ) / W / PP := by gcongr
    _ = ν / (2 * (D : ℝ) ^ 3) * ((U : ℝ) / PP) ^ 3 := by rw [W_eq]; field_simp
    _ ≤ num s (k * y) * X s (k * y) ^ 3 := by
        have : 0 ≤ num s (k * y) := le_trans (by positivity) h1
        gcongr
    _ = _ := rfl

theorem term_neg {S0 S1 Y0 Y1 k V : ℕ} {s y : ℝ} (h : In S0 S1 Y0 Y1 s y)
    (hn : 2 * D3 + 3 * S0 * S0 * (k * Y0) ≤ k * Y1 * (k * Y1) * (k * Y1))
    (hV : KK / E2 S0 (k * Y0) < V * V) :
    -((((k * Y1 * (k * Y1) * (k * Y1) - (2 * D3 + 3 * S0 * S0 * (k * Y0))) * (V * V * V) / W + 1 : ℕ) : ℝ) / PP)
      ≤ hh s (k * y) := by
  have hD := D_pos
  have hP := PP_pos
  have h1 := num_ge (k := k) h
  have e1 : ((2 * D3 + 3 * S0 * S0 * (k * Y0) : ℕ) : ℝ) - ((k * Y1 * (k * Y1) * (k * Y1) : ℕ) : ℝ)
      = -((k * Y1 * (k * Y1) * (k * Y1) - (2 * D3 + 3 * S0 * S0 * (k * Y0)) : ℕ) : ℝ) := by
    rw [Nat.cast_sub hn]; ring
  rw [e1] at h1
  generalize k * Y1 * (k * Y1) * (k * Y1) - (2 * D3 + 3 * S0 * S0 * (k * Y0)) = ν at *
  have hq : 0 ≤ (k : ℝ) * y := mul_nonneg (by positivity) h.yn
  have h2 : X s (k * y) ≤ (V : ℝ) / PP := by
    refine le_trans ?_ (hi_X hV)
    apply X_anti (by positivity) (by positivity) h.s0
    have := h.y0
    push_cast
    rw [mul_div_assoc]; gcongr
  have h3 : (ν * (V * V * V) : ℝ) / W ≤ ((ν * (V * V * V) / W + 1 : ℕ) : ℝ) := by
    have hW : (0 : ℝ) < W := by rw [W_eq]; positivity
    rw [div_le_iff₀ hW]
    have := (Nat.lt_mul_div_succ (ν * (V * V * V)) (by norm_num [W] : 0 < W)).le
    have h' : ((ν * (V * V * V) : ℕ) : ℝ) ≤ ((W * (ν * (V * V * V) / W + 1) : ℕ) : ℝ) := by exact_mod_cast this
    push_cast at h' ⊢
    linarith
  have h4 : ν / (2 * (D : ℝ) ^ 3) * X s (k * y) ^ 3 ≤ ((ν * (V * V * V) / W + 1 : ℕ) : ℝ) / PP := by
    calc ν / (2 * (D : ℝ) ^ 3) * X s (k * y) ^ 3 ≤ ν / (2 * (D : ℝ) ^ 3) * ((V : ℝ) / PP) ^ 3 := by
          have := (X_pos h.sn hq).le
          gcongr
      _ = (ν * (V * V * V) : ℝ) / W / PP := by rw [W_eq]; field_simp
      _ ≤ _ := by gcongr
  have h5 : -(ν / (2 * (D : ℝ) ^ 3) * X s (k * y) ^ 3) ≤ hh s (k * y) := by
    unfold hh
    have := mul_le_mul_of_nonneg_right h1 (pow_nonneg (X_pos h.sn hq).le 3)
    rw [neg_div, neg_mul] at this
    exact this
  linarith

theorem loop_spec {S0 S1 Y0 Y1 : ℕ} {fin : ℕ → ℕ → Bool} {s y : ℝ} (h : In S0 S1 Y0 Y1 s y) :
    ∀ (k pos neg : ℕ), loop S0 S1 Y0 Y1 fin k pos neg = true →
      ∃ pos' neg' : ℕ, fin pos' neg' = true ∧
        ((pos' : ℝ) - neg') / PP ≤ ((pos : ℝ) - neg) / PP + ∑ i ∈ Finset.range k, hh s (((i + 1 : ℕ) : ℝ) * y)
  | 0, pos, neg, hl => ⟨pos, neg, hl, by simp⟩
  | k + 1, pos, neg, hl => by
    have hP := PP_pos
    unfold loop at hl
    simp only [force_eq, Bool.cond_eq_ite] at hl
    split_ifs at hl with hn
    · obtain ⟨U, hU, hl⟩ := withLo_spec hl
      obtain ⟨p', n', hf, hle⟩ := loop_spec h k _ _ hl
      refine ⟨p', n', hf, hle.trans ?_⟩
      rw [Finset.sum_range_succ]
      have := term_pos h (Nat.le_of_ble_eq_true hn) hU
      rw [Nat.cast_add]
      rw [show ∀ a b c d e : ℝ, (a + b - c) / d + e = (a - c) / d + (e + b / d) from fun a b c d e => by ring]
      linarith
    · obtain ⟨V, hV, hl⟩ := withHi_spec hl
      obtain ⟨p', n', hf, hle⟩ := loop_spec h k _ _ hl
      refine ⟨p', n', hf, hle.trans ?_⟩
      rw [Finset.sum_range_succ]
      have := term_neg h (by
        have : ¬ _ := hn
        rw [Nat.ble_eq] at this
        exact (not_le.1 this).le) hV
      rw [Nat.cast_add neg]
      rw [show ∀ a b c d e : ℝ, (a - (b + c)) / d + e = (a - b) / d + (e + -(c / d)) from fun a b c d e => by ring]
      linarith

/-- the lower bound that the checker certifies to be positive: `j` exact terms and two ends of the tail -/
noncomputable def bound (j : ℕ) (s y : ℝ) : ℝ :=
  1 / 2 + ∑ i ∈ Finset.range j, hh s (((i + 1 : ℕ) : ℝ) * y)
    - ((j : ℝ) + 1 / 2) * X s (((j : ℝ) + 1 / 2) * y) + 255 * X s (255 * y)

theorem leaf_spec {S0 S1 Y0 Y1 : ℕ} (hl : leaf S0 S1 Y0 Y1 = true) {s y : ℝ} (h : In S0 S1 Y0 Y1 s y) :
    ∃ j : ℕ, j ≤ 200 ∧ 6 ≤ ((j : ℝ) + 1 / 2) * y ∧ 0 < bound j s y := by
  have hD := D_pos
  have hP := PP_pos
  unfold leaf at hl
  simp only [force_eq] at hl
  generalize (12 * D / Y0 + 2) / 2 = j at hl
  simp only [Bool.cond_eq_ite] at hl
  split_ifs at hl with h1 h2
  obtain ⟨p', n', hf, hle⟩ := loop_spec h _ _ _ hl
  obtain ⟨V, hV, hf⟩ := withHi_spec hf
  obtain ⟨U, hU, hf⟩ := withLo_spec hf
  have hf' : n' + ((2 * j + 1) * V / 2 + 1) < p' + 255 * U := by simpa [Nat.blt_eq] using hf
  refine ⟨j, Nat.le_of_ble_eq_true h2, ?_, ?_⟩
  · have h1' : 12 * D ≤ (2 * j + 1) * Y0 := Nat.le_of_ble_eq_true h1
    have h3 : ((12 * D : ℕ) : ℝ) ≤ (((2 * j + 1) * Y0 : ℕ) : ℝ) := by exact_mod_cast h1'
    push_cast at h3
    have h4 : (12 : ℝ) ≤ (2 * j + 1) * ((Y0 : ℝ) / D) := by
      rw [← mul_div_assoc, le_div_iff₀ hD]; exact h3
    have h5 : (2 * (j : ℝ) + 1) * ((Y0 : ℝ) / D) ≤ (2 * j + 1) * y := by have := h.y0; gcongr
    linarith
  · have hUX : (U : ℝ) / PP ≤ X s (255 * y) := by
      refine (lo_X hU).trans ?_
      apply X_anti h.sn (mul_nonneg (by norm_num) h.yn) h.s1
      have := h.y1
      push_cast
      rw [mul_div_assoc]; gcongr
    have hVX : X s (((j : ℝ) + 1 / 2) * y) ≤ (V : ℝ) / PP := by
      refine le_trans ?_ (hi_X hV)
      apply X_anti (by positivity) (by positivity) h.s0
      have h6 : (((2 * j + 1) * Y0 / 2 : ℕ) : ℝ) ≤ ((2 * j + 1) * Y0 : ℝ) / 2 := by
        refine Nat.cast_div_le.trans (le_of_eq ?_); push_cast; rfl
      calc (((2 * j + 1) * Y0 / 2 : ℕ) : ℝ) / D ≤ ((2 * j + 1) * Y0 : ℝ) / 2 / D := by gcongr
        _ = ((j : ℝ) + 1 / 2) * (Y0 / D) := by ring
        _ ≤ _ := by have := h.y0; gcongr
    have h7 : ((n' + ((2 * j + 1) * V / 2 + 1) : ℕ) : ℝ) < ((p' + 255 * U : ℕ) : ℝ) := by exact_mod_cast hf'
    have h8 : ((2 * j + 1) * V : ℝ) / 2 ≤ (((2 * j + 1) * V / 2 + 1 : ℕ) : ℝ) := by
      have := (Nat.lt_mul_div_succ ((2 * j + 1) * V) (by norm_num : 0 < 2)).le
      have h' : (((2 * j + 1) * V : ℕ) : ℝ) ≤ ((2 * ((2 * j + 1) * V / 2 + 1) : ℕ) : ℝ) := by exact_mod_cast this
      push_cast at h' ⊢
      linarith
    have h9 : ((j : ℝ) + 1 / 2) * (V / PP) = ((2 * j + 1) * V : ℝ) / 2 / PP := by ring
    have h10 : ((j : ℝ) + 1 / 2) * X s (((j : ℝ) + 1 / 2) * y) ≤ ((2 * j + 1) * V : ℝ) / 2 / PP := by
      rw [← h9]; gcongr
    have e0 : (((33554432 : ℕ) : ℝ) - ((0 : ℕ) : ℝ)) / PP = 1 / 2 := by norm_num [PP]
    rw [e0] at hle
    unfold bound
    have h11 : ((2 * j + 1) * V : ℝ) / 2 / PP ≤ (((2 * j + 1) * V / 2 + 1 : ℕ) : ℝ) / PP := by gcongr
    have h12 : 0 < ((p' : ℝ) - n') / PP - (((2 * j + 1) * V / 2 + 1 : ℕ) : ℝ) / PP + 255 * (U / PP) := by
      rw [show ∀ a b c d e : ℝ, (a - b) / d - c / d + 255 * (e / d) = (a - b - c + 255 * e) / d from
        fun a b c d e => by ring]
      apply div_pos _ hP
      push_cast at h7 ⊢
      linarith
    linarith

theorem go_spec : ∀ (f S0 S1 Y0 Y1 : ℕ), go f S0 S1 Y0 Y1 = true → ∀ s y : ℝ, In S0 S1 Y0 Y1 s y →
    ∃ j : ℕ, j ≤ 200 ∧ 6 ≤ ((j : ℝ) + 1 / 2) * y ∧ 0 < bound j s y
  | 0, _, _, _, _, h => by simp [go] at h
  | f + 1, S0, S1, Y0, Y1, h => by
    intro s y hi
    unfold go at h
    simp only [force_eq, Bool.cond_eq_ite] at h
    split_ifs at h with h1 h2 h3 h3
    · exact leaf_spec h1 hi
    · rcases le_total s ((((S0 + S1) / 2 : ℕ) : ℝ) / D) with hs | hs
      · exact go_spec f _ _ _ _ h3 _ _ ⟨hi.s0, hs, hi.y0, hi.y1⟩
      · exact go_spec f _ _ _ _ h _ _ ⟨hs, hi.s1, hi.y0, hi.y1⟩
    · rcases le_total y ((((Y0 + Y1) / 2 : ℕ) : ℝ) / D) with hs | hs
      · exact go_spec f _ _ _ _ h3 _ _ ⟨hi.s0, hi.s1, hi.y0, hs⟩
      · exact go_spec f _ _ _ _ h _ _ ⟨hi.s0, hi.s1, hs, hi.y1⟩

end Dsps.Lemmas.Box
