import Verif.Model.Photometry
import Verif.Lemmas.Interp
import Verif.Lemmas.Utils

/-! Lemmas for the photometry properties. -/
namespace Dsps.Lemmas
open Jnp Dsps.Utils Dsps.Photometry
open scoped BigOperators

variable {n m : ℕ}

section
variable [Dtype]

theorem interpBody_lin (x : ℝ) (xp f g : Fin (n + 2) → ℝ) (a b : ℝ) :
    interpBody x xp (fun i => a * f i + b * g i) = a * interpBody x xp f + b * interpBody x xp g := by
  unfold interpBody
  simp only
  split_ifs <;> ring

theorem interp0_lin (x : ℝ) (xp f g : Fin (n + 2) → ℝ) (a b : ℝ) :
    interpLR x xp (fun i => a * f i + b * g i) 0 0 = a * interpLR x xp f 0 0 + b * interpLR x xp g 0 0 := by
  unfold interpLR
  split_ifs
  · ring
  · ring
  · exact interpBody_lin x xp f g a b

theorem interp0_smul (x : ℝ) (xp f : Fin (n + 2) → ℝ) (a : ℝ) :
    interpLR x xp (fun i => a * f i) 0 0 = a * interpLR x xp f 0 0 := by
  have := interp0_lin x xp f f a 0
  simpa using this

theorem interp0_add (x : ℝ) (xp f g : Fin (n + 2) → ℝ) :
    interpLR x xp (fun i => f i + g i) 0 0 = interpLR x xp f 0 0 + interpLR x xp g 0 0 := by
  have := interp0_lin x xp f g 1 1
  simpa using this

theorem interp0_mono {xp : Fin (n + 2) → ℝ} (hx : Monotone xp) (x : ℝ) {f g : Fin (n + 2) → ℝ}
    (h : ∀ i, f i ≤ g i) : interpLR x xp f 0 0 ≤ interpLR x xp g 0 0 := by
  rcases lt_or_ge x (xp 0) with h0 | h0
  · rw [interp_of_lt hx h0, interp_of_lt hx h0]
  rcases lt_or_ge (xp (Fin.last (n + 1))) x with h1 | h1
  · rw [interp_of_gt h1, interp_of_gt h1]
  · rw [interp_of_mem h0 h1, interp_of_mem h0 h1]
    obtain ⟨s, a, b, c⟩ := interpBody_convex hx h0 h1
    rw [c, c]
    nlinarith [h (interpCell xp x).castSucc, h (interpCell xp x).succ]

theorem interp0_nonneg {xp : Fin (n + 2) → ℝ} (hx : Monotone xp) (x : ℝ) {f : Fin (n + 2) → ℝ}
    (h : ∀ i, 0 ≤ f i) : 0 ≤ interpLR x xp f 0 0 := by
  have h0 : interpLR x xp (fun _ : Fin (n + 2) => (0 : ℝ)) 0 0 = 0 := by
    have := interp0_smul x xp f 0; simpa using this
  exact h0.symm.le.trans (interp0_mono hx x h)

theorem interp0_const {xp : Fin (n + 2) → ℝ} (hx : Monotone xp) {x : ℝ} (c : ℝ)
    (h0 : xp 0 ≤ x) (h1 : x ≤ xp (Fin.last (n + 1))) : interpLR x xp (fun _ => c) 0 0 = c := by
  rw [interp_of_mem h0 h1]
  obtain ⟨s, a, b, h⟩ := interpBody_convex hx h0 h1
  rw [h]; ring

/-- locality -/
theorem interp0_congr {xp f g : Fin (n + 2) → ℝ} (hx : StrictMono xp) {lo hi : Fin (n + 2)} {x : ℝ}
    (h0 : xp lo ≤ x) (h1 : x < xp hi) (h : ∀ j, lo ≤ j → j ≤ hi → f j = g j) :
    interpLR x xp f 0 0 = interpLR x xp g 0 0 := by
  have hm := hx.monotone
  have a0 : xp 0 ≤ x := (hm (Fin.zero_le lo)).trans h0
  have a1 : x ≤ xp (Fin.last (n + 1)) := h1.le.trans (hm (Fin.le_last hi))
  rw [interp_of_mem a0 a1, interp_of_mem a0 a1]
  obtain ⟨s, -, -, c⟩ := interpBody_convex hm a0 a1
  have b0 : (interpCell xp x).castSucc < hi := hx.lt_iff_lt.1 ((interpCell_left hm a0).trans_lt h1)
  have b1 : lo ≤ (interpCell xp x).castSucc := by
    -- the cell index is the largest one with xp ≤ x below the last
    by_contra hcon
    push Not at hcon
    have hs : (interpCell xp x).succ ≤ lo := by
      rw [Fin.le_def]; rw [Fin.lt_def] at hcon; simp at hcon ⊢; omega
    have hne : interpCell xp x ≠ Fin.last n := by
      intro e
      rw [e] at b0 hcon hs
      have : lo < hi := hx.lt_iff_lt.1 (h0.trans_lt h1)
      rw [Fin.lt_def] at this
      rw [Fin.le_def] at hs
      have := hi.2
      simp at hs
      omega
    have := interpCell_right_lt hm hne
    exact absurd (h0.trans_lt this) (not_lt.2 (hm hs))
  rw [c, c, h _ b1 b0.le, h _ (b1.trans (Fin.castSucc_lt_succ).le) (by
    rw [Fin.lt_def] at b0; rw [Fin.le_def]; simp at b0 ⊢; omega)]

/-- scaling the abscissa -/
theorem interp0_scale {xp : Fin (n + 2) → ℝ} {k : ℝ} (hk : 0 < k) (hr : Resolved xp)
    (hr' : Resolved fun j => xp j * k) (f : Fin (n + 2) → ℝ) (x : ℝ) :
    interpLR x (fun j => xp j * k) f 0 0 = interpLR (x / k) xp f 0 0 := by
  have e0 : x < xp 0 * k ↔ x / k < xp 0 := by rw [div_lt_iff₀ hk]
  have e1 : xp (Fin.last (n + 1)) * k < x ↔ xp (Fin.last (n + 1)) < x / k := by rw [lt_div_iff₀ hk]
  unfold interpLR last
  simp only [gt_iff_lt, e0, e1]
  split_ifs with h1 h2
  · rfl
  · rfl
  · have hc : interpCell (fun j => xp j * k) x = interpCell xp (x / k) := by
      unfold interpCell searchsortedRight
      simp only [le_div_iff₀ hk]
    unfold interpBody
    rw [hc]
    set i := interpCell xp (x / k)
    have n1 := hr'.not_guard i
    have n2 := hr.not_guard i
    rw [if_neg n1, if_neg n2]
    have hd : 0 < xp i.succ - xp i.castSucc := lt_of_le_of_lt Dtype.interpEps_nonneg (hr i)
    have : xp i.succ * k - xp i.castSucc * k = (xp i.succ - xp i.castSucc) * k := by ring
    rw [this]
    field_simp

end

theorem trapz_smul (x y : Fin (n + 1) → ℝ) (c : ℝ) : trapz x (fun i => c * y i) = c * trapz x y := by
  rw [trapz_eq, trapz_eq, Finset.mul_sum]
  exact Finset.sum_congr rfl fun i _ => by ring

theorem trapz_add' (x y y' : Fin (n + 1) → ℝ) : trapz x (fun i => y i + y' i) = trapz x y + trapz x y' := by
  rw [trapz_eq, trapz_eq, trapz_eq, ← Finset.sum_add_distrib]
  exact Finset.sum_congr rfl fun i _ => by ring

theorem trapz_mono {x y y' : Fin (n + 1) → ℝ} (hx : Monotone x) (h : ∀ i, y i ≤ y' i) : trapz x y ≤ trapz x y' := by
  rw [trapz_eq, trapz_eq]
  apply Finset.sum_le_sum
  intro i _
  have h0 : 0 ≤ x i.succ - x i.castSucc := sub_nonneg.2 (hx (Fin.castSucc_lt_succ).le)
  have := mul_le_mul_of_nonneg_left (add_le_add (h i.castSucc) (h i.succ)) h0
  linarith

theorem trapz_scale_x (x y : Fin (n + 1) → ℝ) (k : ℝ) : trapz (fun i => x i / k) y = trapz x y / k := by
  rw [trapz_eq, trapz_eq, Finset.sum_div]
  exact Finset.sum_congr rfl fun i _ => by ring

end Dsps.Lemmas
