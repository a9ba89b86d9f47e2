import Verif.Jnp
import Mathlib.Tactic
import Mathlib.Order.Interval.Finset.Fin

/-! Facts about `jnp.interp`. -/
namespace Jnp
open scoped BigOperators

variable {n : ℕ}

/-- Adjacent table entries are further apart than the guard of `jnp.interp`.  Any float table with distinct
entries of ordinary magnitude satisfies this (the guard is 2^-104 in float64). -/
def Resolved [Dtype] (xp : Fin (n + 2) → ℝ) : Prop :=
  ∀ i : Fin (n + 1), Dtype.interpEps < xp i.succ - xp i.castSucc

theorem Resolved.strictMono [Dtype] {xp : Fin (n + 2) → ℝ} (h : Resolved xp) : StrictMono xp := by
  rw [Fin.strictMono_iff_lt_succ]
  intro i
  have := h i
  have := Dtype.interpEps_nonneg
  linarith

theorem lt_searchsortedRight_iff {xp : Fin n → ℝ} (hx : Monotone xp) (x : ℝ) (j : Fin n) :
    (j : ℕ) < searchsortedRight xp x ↔ xp j ≤ x := by
  classical
  unfold searchsortedRight
  constructor
  · intro h
    by_contra hcon
    push Not at hcon
    have hsub : (Finset.univ.filter fun j => xp j ≤ x) ⊆ Finset.Iio j := by
      intro i hi
      simp only [Finset.mem_filter, Finset.mem_univ, true_and] at hi
      rw [Finset.mem_Iio]
      by_contra hij
      push Not at hij
      linarith [hx hij]
    have := Finset.card_le_card hsub
    rw [Fin.card_Iio] at this
    convert absurd h (not_lt.mpr _)
    convert this
  · intro h
    have hsub : Finset.Iic j ⊆ (Finset.univ.filter fun j => xp j ≤ x) := by
      intro i hi
      simp only [Finset.mem_filter, Finset.mem_univ, true_and]
      exact (hx (Finset.mem_Iic.mp hi)).trans h
    have := Finset.card_le_card hsub
    rw [Fin.card_Iic] at this
    refine lt_of_lt_of_le (Nat.lt_succ_self _) ?_
    convert this

theorem searchsortedRight_le (xp : Fin n → ℝ) (x : ℝ) : searchsortedRight xp x ≤ n := by
  classical
  unfold searchsortedRight
  refine (Finset.card_le_univ _).trans ?_
  simp

theorem searchsortedRight_mono (xp : Fin n → ℝ) : Monotone (searchsortedRight xp) := by
  classical
  intro x y hxy
  unfold searchsortedRight
  apply Finset.card_le_card
  intro i hi
  simp only [Finset.mem_filter, Finset.mem_univ, true_and] at *
  exact hi.trans hxy

theorem interpCell_val (xp : Fin (n + 2) → ℝ) (x : ℝ) :
    (interpCell xp x : ℕ) = min (max (searchsortedRight xp x) 1) (n + 1) - 1 := rfl

theorem interpCell_mono (xp : Fin (n + 2) → ℝ) : Monotone (interpCell xp) := by
  intro x y hxy
  have := searchsortedRight_mono xp hxy
  rw [Fin.le_def, interpCell_val, interpCell_val]
  omega

/-- The left end of the cell is at or below `x`, once `x` is not below the table. -/
theorem interpCell_left {xp : Fin (n + 2) → ℝ} (hx : Monotone xp) {x : ℝ} (h0 : xp 0 ≤ x) :
    xp (interpCell xp x).castSucc ≤ x := by
  rw [← lt_searchsortedRight_iff hx]
  have h := (lt_searchsortedRight_iff hx x 0).mpr h0
  have := interpCell_val xp x
  simp only [Fin.val_castSucc, Fin.val_zero] at *
  omega

/-- The right end of the cell is at or above `x`, once `x` is not above the table. -/
theorem interpCell_right {xp : Fin (n + 2) → ℝ} (hx : Monotone xp) {x : ℝ} (h1 : x ≤ xp (Fin.last (n + 1))) :
    x ≤ xp (interpCell xp x).succ := by
  by_contra hcon
  push Not at hcon
  have h := (lt_searchsortedRight_iff hx x (interpCell xp x).succ).mpr hcon.le
  have hv := interpCell_val xp x
  have hle := searchsortedRight_le xp x
  have : interpCell xp x = Fin.last n := by
    apply Fin.ext
    simp only [Fin.val_succ, Fin.val_last] at *
    omega
  rw [this, Fin.succ_last] at hcon
  linarith

/-- strictly below the right end, unless the cell is the last one -/
theorem interpCell_right_lt {xp : Fin (n + 2) → ℝ} (hx : Monotone xp) {x : ℝ} (hc : interpCell xp x ≠ Fin.last n) :
    x < xp (interpCell xp x).succ := by
  by_contra hcon
  push Not at hcon
  have h := (lt_searchsortedRight_iff hx x (interpCell xp x).succ).mpr hcon
  have hv := interpCell_val xp x
  have hle := searchsortedRight_le xp x
  apply hc
  apply Fin.ext
  simp only [Fin.val_succ, Fin.val_last] at *
  omega

/-- The cell containing a point strictly inside `[xp i, xp (i+1))`. -/
theorem interpCell_eq {xp : Fin (n + 2) → ℝ} (hx : Monotone xp) {x : ℝ} (i : Fin (n + 1))
    (h0 : xp i.castSucc ≤ x) (h1 : x < xp i.succ) : interpCell xp x = i := by
  have a := (lt_searchsortedRight_iff hx x i.castSucc).mpr h0
  have b : ¬ ((i.succ : ℕ) < searchsortedRight xp x) := by
    rw [lt_searchsortedRight_iff hx]; exact not_le.mpr h1
  apply Fin.ext
  rw [interpCell_val]
  simp only [Fin.val_castSucc, Fin.val_succ] at *
  have := i.2
  omega

theorem interpCell_last {xp : Fin (n + 2) → ℝ} (hx : Monotone xp) {x : ℝ}
    (h0 : xp (Fin.last n).castSucc ≤ x) : interpCell xp x = Fin.last n := by
  have a := (lt_searchsortedRight_iff hx x (Fin.last n).castSucc).mpr h0
  apply Fin.ext
  rw [interpCell_val]
  simp only [Fin.val_castSucc, Fin.val_last] at *
  omega

variable [Dtype]

theorem interp_of_lt {xp fp : Fin (n + 2) → ℝ} (hx : Monotone xp) {x l r : ℝ} (h : x < xp 0) :
    interpLR x xp fp l r = l := by
  unfold interpLR last
  rw [if_neg (not_lt.mpr (h.le.trans (hx (Fin.zero_le _)))), if_pos h]

theorem interp_of_gt {xp fp : Fin (n + 2) → ℝ} {x l r : ℝ} (h : xp (Fin.last (n + 1)) < x) :
    interpLR x xp fp l r = r := by
  unfold interpLR last
  rw [if_pos h]

theorem interp_of_mem {xp fp : Fin (n + 2) → ℝ} {x l r : ℝ} (h0 : xp 0 ≤ x) (h1 : x ≤ xp (Fin.last (n + 1))) :
    interpLR x xp fp l r = interpBody x xp fp := by
  unfold interpLR last
  rw [if_neg (not_lt.mpr h1), if_neg (not_lt.mpr h0)]

/-- inside the table the value is a convex combination of the two ends of the cell (with weight depending only on
`x` and the abscissae) -/
theorem interpBody_convex {xp : Fin (n + 2) → ℝ} (hx : Monotone xp) {x : ℝ} (h0 : xp 0 ≤ x)
    (h1 : x ≤ xp (Fin.last (n + 1))) :
    ∃ s : ℝ, 0 ≤ s ∧ s ≤ 1 ∧ ∀ fp : Fin (n + 2) → ℝ, interpBody x xp fp =
      (1 - s) * fp (interpCell xp x).castSucc + s * fp (interpCell xp x).succ := by
  have hl := interpCell_left hx h0
  have hr := interpCell_right hx h1
  unfold interpBody
  by_cases hd : |xp (interpCell xp x).succ - xp (interpCell xp x).castSucc| ≤ Dtype.interpEps
  · refine ⟨0, le_rfl, zero_le_one, fun fp => ?_⟩
    simp only [hd, if_true]; ring
  · have hpos : 0 < xp (interpCell xp x).succ - xp (interpCell xp x).castSucc := by
      have := Dtype.interpEps_nonneg
      rw [abs_of_nonneg (by linarith)] at hd
      linarith
    refine ⟨(x - xp (interpCell xp x).castSucc) / (xp (interpCell xp x).succ - xp (interpCell xp x).castSucc),
      div_nonneg (by linarith) hpos.le, (div_le_one hpos).mpr (by linarith), fun fp => ?_⟩
    simp only [hd, if_false]; ring

/-- `jnp.interp` as a convex combination of two adjacent table values, everywhere. -/
theorem interp_convex {xp : Fin (n + 2) → ℝ} (hx : Monotone xp) (x : ℝ) :
    ∃ (i : Fin (n + 1)) (s : ℝ), 0 ≤ s ∧ s ≤ 1 ∧ ∀ fp : Fin (n + 2) → ℝ, interp x xp fp =
      (1 - s) * fp i.castSucc + s * fp i.succ := by
  unfold interp
  rcases lt_or_ge x (xp 0) with h | h
  · exact ⟨0, 0, le_rfl, zero_le_one, fun fp => by rw [interp_of_lt hx h]; simp⟩
  · rcases lt_or_ge (xp (Fin.last (n + 1))) x with g | g
    · refine ⟨Fin.last n, 1, zero_le_one, le_rfl, fun fp => ?_⟩
      rw [interp_of_gt g, Fin.succ_last]; simp [last]
    · obtain ⟨s, a, b, c⟩ := interpBody_convex hx h g
      exact ⟨_, s, a, b, fun fp => by rw [interp_of_mem h g, c]⟩

/-- values stay within any bounds on the table -/
theorem interp_bounds {xp fp : Fin (n + 2) → ℝ} (hx : Monotone xp) (x lo hi : ℝ) (hlo : ∀ i, lo ≤ fp i)
    (hhi : ∀ i, fp i ≤ hi) : lo ≤ interp x xp fp ∧ interp x xp fp ≤ hi := by
  obtain ⟨i, s, a, b, c⟩ := interp_convex hx x
  rw [c]
  constructor <;> nlinarith [hlo i.castSucc, hlo i.succ, hhi i.castSucc, hhi i.succ]

theorem interp_linear {xp : Fin (n + 2) → ℝ} (hx : Monotone xp) (x a b : ℝ) (f g : Fin (n + 2) → ℝ) :
    interp x xp (fun i => a * f i + b * g i) = a * interp x xp f + b * interp x xp g := by
  obtain ⟨i, s, _, _, c⟩ := interp_convex hx x
  rw [c, c, c]; ring

theorem interp_const {xp : Fin (n + 2) → ℝ} (hx : Monotone xp) (x c : ℝ) : interp x xp (fun _ => c) = c := by
  obtain ⟨i, s, _, _, h⟩ := interp_convex hx x
  rw [h]; ring

theorem interp_mono_fp {xp : Fin (n + 2) → ℝ} (hx : Monotone xp) (x : ℝ) {f g : Fin (n + 2) → ℝ} (h : ∀ i, f i ≤ g i) :
    interp x xp f ≤ interp x xp g := by
  obtain ⟨i, s, a, b, c⟩ := interp_convex hx x
  rw [c, c]
  nlinarith [h i.castSucc, h i.succ]

theorem interpBody_bounds {xp fp : Fin (n + 2) → ℝ} (hx : Monotone xp) (hf : Monotone fp) {x : ℝ} (h0 : xp 0 ≤ x)
    (h1 : x ≤ xp (Fin.last (n + 1))) :
    fp (interpCell xp x).castSucc ≤ interpBody x xp fp ∧ interpBody x xp fp ≤ fp (interpCell xp x).succ := by
  obtain ⟨s, a, b, c⟩ := interpBody_convex hx h0 h1
  have := hf (Fin.castSucc_lt_succ (i := interpCell xp x)).le
  rw [c]
  constructor <;> nlinarith

/-- monotone in `x` for monotone tables -/
theorem interp_mono {xp fp : Fin (n + 2) → ℝ} (hx : Monotone xp) (hf : Monotone fp) :
    Monotone fun x => interp x xp fp := by
  intro x y hxy
  simp only
  have hfl : ∀ z, fp 0 ≤ interp z xp fp ∧ interp z xp fp ≤ fp (Fin.last (n + 1)) := fun z =>
    interp_bounds hx z _ _ (fun i => hf (Fin.zero_le i)) (fun i => hf (Fin.le_last i))
  rcases lt_or_ge x (xp 0) with h | h
  · have : interp x xp fp = fp 0 := interp_of_lt hx h
    rw [this]; exact (hfl y).1
  rcases lt_or_ge (xp (Fin.last (n + 1))) y with g | g
  · have : interp y xp fp = fp (Fin.last (n + 1)) := interp_of_gt g
    rw [this]; exact (hfl x).2
  have ex : interp x xp fp = interpBody x xp fp := interp_of_mem h (hxy.trans g)
  have ey : interp y xp fp = interpBody y xp fp := interp_of_mem (h.trans hxy) g
  rw [ex, ey]
  rcases (interpCell_mono xp hxy).lt_or_eq with hc | hc
  · have a := (interpBody_bounds hx hf h (hxy.trans g)).2
    have b := (interpBody_bounds hx hf (h.trans hxy) g).1
    refine a.trans (le_trans (hf ?_) b)
    rw [Fin.le_def]
    simp only [Fin.val_succ, Fin.val_castSucc]
    exact hc
  · unfold interpBody
    simp only [hc]
    by_cases hd : |xp (interpCell xp y).succ - xp (interpCell xp y).castSucc| ≤ Dtype.interpEps
    · simp only [hd, if_true]; exact le_rfl
    · simp only [hd, if_false]
      have hl := interpCell_left hx (h.trans hxy)
      have hpos : 0 ≤ xp (interpCell xp y).succ - xp (interpCell xp y).castSucc :=
        sub_nonneg.mpr (hx (Fin.castSucc_lt_succ (i := interpCell xp y)).le)
      have hdf := sub_nonneg.mpr (hf (Fin.castSucc_lt_succ (i := interpCell xp y)).le)
      have : (x - xp (interpCell xp y).castSucc) / (xp (interpCell xp y).succ - xp (interpCell xp y).castSucc)
          ≤ (y - xp (interpCell xp y).castSucc) / (xp (interpCell xp y).succ - xp (interpCell xp y).castSucc) := by
        apply div_le_div_of_nonneg_right _ hpos; linarith
      nlinarith

theorem Resolved.not_guard {xp : Fin (n + 2) → ℝ} (hr : Resolved xp) (i : Fin (n + 1)) :
    ¬ |xp i.succ - xp i.castSucc| ≤ Dtype.interpEps := by
  have h1 := hr i
  have h2 : 0 < xp i.succ - xp i.castSucc := lt_of_le_of_lt Dtype.interpEps_nonneg h1
  rw [abs_of_pos h2]; linarith

/-- On a resolved table the value in the cell `[xp i, xp (i+1)]` (both ends included) is the straight line through the
two table points. -/
theorem interp_cell {xp : Fin (n + 2) → ℝ} (hr : Resolved xp) (fp : Fin (n + 2) → ℝ) (i : Fin (n + 1)) {x : ℝ}
    (h0 : xp i.castSucc ≤ x) (h1 : x ≤ xp i.succ) :
    interp x xp fp = fp i.castSucc + (x - xp i.castSucc) / (xp i.succ - xp i.castSucc) * (fp i.succ - fp i.castSucc) := by
  have hx := hr.strictMono.monotone
  have ha : xp 0 ≤ x := (hx (Fin.zero_le _)).trans h0
  have hb : x ≤ xp (Fin.last (n + 1)) := h1.trans (hx (Fin.le_last _))
  unfold interp
  rw [interp_of_mem ha hb]
  have main : ∀ j : Fin (n + 1), interpCell xp x = j → interpBody x xp fp =
      fp j.castSucc + (x - xp j.castSucc) / (xp j.succ - xp j.castSucc) * (fp j.succ - fp j.castSucc) := by
    intro j hj
    unfold interpBody
    simp only [hj]
    rw [if_neg (hr.not_guard j)]
  rcases h1.lt_or_eq with h | h
  · exact main i (interpCell_eq hx i h0 h)
  · rcases eq_or_ne i (Fin.last n) with hi | hi
    · subst hi
      exact main _ (interpCell_last hx h0)
    · -- x is the left end of the next cell
      have hlt : (i : ℕ) < n := by
        have := i.2
        have : (i : ℕ) ≠ n := fun h => hi (Fin.ext h)
        omega
      set j : Fin (n + 1) := ⟨i + 1, by omega⟩ with hj
      have hji : j.castSucc = i.succ := by apply Fin.ext; simp [hj]
      have hcell : interpCell xp x = j := by
        apply interpCell_eq hx j
        · rw [hji, h]
        · rw [h, ← hji]; exact hr.strictMono Fin.castSucc_lt_succ
      rw [main j hcell, hji, h, sub_self, zero_div, zero_mul, add_zero]
      have : xp i.succ - xp i.castSucc ≠ 0 := (lt_of_le_of_lt Dtype.interpEps_nonneg (hr i)).ne'
      rw [div_self this]; ring

theorem interp_node {xp : Fin (n + 2) → ℝ} (hr : Resolved xp) (fp : Fin (n + 2) → ℝ) (i : Fin (n + 2)) :
    interp (xp i) xp fp = fp i := by
  rcases i.eq_zero_or_eq_succ with h | ⟨j, h⟩
  · subst h
    have := interp_cell hr fp 0 (x := xp 0) le_rfl (hr.strictMono.monotone (Fin.zero_le _))
    rw [this]; simp
  · subst h
    rw [interp_cell hr fp j (hr.strictMono.monotone (Fin.castSucc_lt_succ).le) le_rfl]
    have : xp j.succ - xp j.castSucc ≠ 0 := (lt_of_le_of_lt Dtype.interpEps_nonneg (hr j)).ne'
    rw [div_self this]; ring

/-- strictly increasing inside the table for resolved, strictly increasing tables -/
theorem interp_strictMonoOn {xp fp : Fin (n + 2) → ℝ} (hr : Resolved xp) (hf : StrictMono fp) :
    StrictMonoOn (fun x => interp x xp fp) (Set.Icc (xp 0) (xp (Fin.last (n + 1)))) := by
  have hx := hr.strictMono.monotone
  intro x hxm y hym hxy
  simp only
  have hl := interpCell_left hx hxm.1
  have hrr := interpCell_right hx hxm.2
  set c := interpCell xp x
  have hgap : 0 < xp c.succ - xp c.castSucc := lt_of_le_of_lt Dtype.interpEps_nonneg (hr c)
  have hdf := sub_pos.mpr (hf (Fin.castSucc_lt_succ (i := c)))
  have key : ∀ u v, xp c.castSucc ≤ u → u < v → v ≤ xp c.succ → interp u xp fp < interp v xp fp := by
    intro u v hu huv hv
    rw [interp_cell hr fp c hu (huv.le.trans hv), interp_cell hr fp c (hu.trans huv.le) hv]
    have : (u - xp c.castSucc) / (xp c.succ - xp c.castSucc) < (v - xp c.castSucc) / (xp c.succ - xp c.castSucc) := by
      apply div_lt_div_of_pos_right _ hgap; linarith
    nlinarith
  rcases le_or_gt y (xp c.succ) with h | h
  · exact key x y hl hxy h
  · rcases hrr.lt_or_eq with g | g
    · exact (key x (xp c.succ) hl g le_rfl).trans_le (interp_mono hx hf.monotone h.le)
    · -- x is a node: then c is the last cell
      have : c = Fin.last n := by
        by_contra hc
        have := interpCell_right_lt hx (x := x) hc
        linarith
      rw [this, Fin.succ_last] at h
      linarith [hym.2]

/-- locality: only the table values at indices up to `k` matter if `x ≤ xp k` -/
theorem interp_congr_left {xp f g : Fin (n + 2) → ℝ} (hr : StrictMono xp) (k : Fin (n + 2)) {x : ℝ} (hx : x < xp k)
    (h : ∀ j ≤ k, f j = g j) : interp x xp f = interp x xp g := by
  have hm := hr.monotone
  rcases lt_or_ge x (xp 0) with h0 | h0
  · have a : interp x xp f = f 0 := interp_of_lt hm h0
    have b : interp x xp g = g 0 := interp_of_lt hm h0
    rw [a, b, h 0 (Fin.zero_le _)]
  · have h1 : x ≤ xp (Fin.last (n + 1)) := hx.le.trans (hm (Fin.le_last _))
    unfold interp
    rw [interp_of_mem h0 h1, interp_of_mem h0 h1]
    obtain ⟨s, _, _, c⟩ := interpBody_convex hm h0 h1
    have hl := interpCell_left hm h0
    have hlt : (interpCell xp x).castSucc < k := by
      by_contra hcon
      push Not at hcon
      linarith [hm hcon]
    have hs : (interpCell xp x).succ ≤ k := by
      rw [Fin.le_def]; rw [Fin.lt_def] at hlt; simpa using hlt
    rw [c, c, h _ hlt.le, h _ hs]

end Jnp
