import Verif.Props.RangeCosmo
import Verif.Lemmas.RangePhot

/-! Values of the operations on floats with a finite range: every operation returns the exact result, flushed to zero when it is below the smallest normal number. -/
namespace Dsps.Lemmas
open XF Range Dsps.Props

variable {R : Range} {a b : Ranged R} {y z A B : ℝ} {n m : ℕ}

open Classical in
/-- flush to zero -/
noncomputable def fl (R : Range) (y : ℝ) : ℝ := if |y| < R.tiny then 0 else y

theorem fl_mono : Monotone (fl R) := by
  intro y z h
  have ht := R.tiny_pos
  unfold fl
  split_ifs with h1 h2 h2
  · exact le_rfl
  · rw [abs_lt] at h1
    rcases le_abs'.1 (not_lt.1 h2) with h3 | h3 <;> linarith
  · rw [abs_lt] at h2
    rcases le_abs'.1 (not_lt.1 h1) with h3 | h3 <;> linarith
  · exact h
theorem fl_zero : fl R 0 = 0 := by unfold fl; split_ifs <;> rfl
theorem fl_near (y : ℝ) : |fl R y - y| ≤ R.tiny := by
  unfold fl
  split_ifs with h
  · rw [zero_sub, abs_neg]; exact h.le
  · rw [sub_self, abs_zero]; exact R.tiny_pos.le
theorem fl_abs (y : ℝ) : |fl R y| ≤ |y| := by
  unfold fl
  split_ifs with h
  · rw [abs_zero]; exact abs_nonneg y
  · exact le_rfl
theorem fl_eq (h : y = 0 ∨ R.tiny ≤ |y|) : fl R y = y := by
  rcases h with rfl | h
  · exact fl_zero
  · unfold fl; rw [if_neg (not_lt.2 h)]
theorem fl_in (h : y = 0 ∨ R.In y) : fl R y = y := fl_eq (h.imp id And.left)
theorem fl_nonneg (h : 0 ≤ y) : 0 ≤ fl R y := by have := fl_mono (R := R) h; rwa [fl_zero] at this
theorem fl_le (h : 0 ≤ y) : fl R y ≤ y := by
  have := fl_abs (R := R) y
  rwa [abs_of_nonneg h, abs_of_nonneg (fl_nonneg h)] at this
theorem fl_ge (y : ℝ) : y - R.tiny ≤ fl R y := by have := (abs_le.1 (fl_near (R := R) y)).1; linarith
theorem fl_le' (y : ℝ) : fl R y ≤ y + R.tiny := by have := (abs_le.1 (fl_near (R := R) y)).2; linarith

theorem is_fit {c : XF} (h : Rep c y) (hy : |y| ≤ R.max) : Is (⟨R.fit c⟩ : Ranged R) (fl R y) := by
  unfold fl
  split_ifs with ht
  · exact ⟨rep_fit_under h ht, Or.inl rfl⟩
  · have : R.In y := ⟨not_lt.1 ht, hy⟩
    exact ⟨rep_fit h (Or.inr this), Or.inr this⟩

theorem is_litF (h : |y| ≤ R.max) : Is (Flt.lit y : Ranged R) (fl R y) := is_fit (Rep.fin y) h
theorem Is.addF (ha : Is a y) (hb : Is b z) (h : |y + z| ≤ R.max) : Is (a + b) (fl R (y + z)) := is_fit (ha.1.add hb.1) h
theorem Is.subF (ha : Is a y) (hb : Is b z) (h : |y - z| ≤ R.max) : Is (a - b) (fl R (y - z)) := is_fit (ha.1.sub hb.1) h
theorem Is.mulF (ha : Is a y) (hb : Is b z) (h : |y * z| ≤ R.max) : Is (a * b) (fl R (y * z)) := is_fit (ha.1.mul hb.1) h
theorem Is.divF (ha : Is a y) (hb : Is b z) (hz : z ≠ 0) (h : |y / z| ≤ R.max) : Is (a / b) (fl R (y / z)) := is_fit (ha.1.div hb.1 hz) h
theorem Is.exp10F (ha : Is a y) (h : (10:ℝ) ^ y ≤ R.max) : Is (Flt.exp10 a) (fl R ((10:ℝ) ^ y)) := by
  refine is_fit ?_ (by rwa [abs_of_pos (by positivity)])
  rw [ha.1.exp10]; exact Rep.fin _
theorem Is.log10F (ha : Is a y) (hy : 0 < y) (h : |Real.logb 10 y| ≤ R.max) : Is (Flt.log10 a) (fl R (Real.logb 10 y)) := by
  refine is_fit ?_ h
  rw [ha.1.log10 hy]; exact Rep.fin _
theorem is_sel {c : Prop} {p : Prop} [Decidable p] (hc : c ↔ p) (ha : p → Is a y) (hb : ¬ p → Is b z) : Is (Flt.sel c a b) (if p then y else z) := by
  by_cases h : p
  · rw [if_pos h]; have : Flt.sel c a b = a := if_pos (hc.2 h)
    rw [this]; exact ha h
  · rw [if_neg h]; have : Flt.sel c a b = b := if_neg (fun h' => h (hc.1 h'))
    rw [this]; exact hb h
theorem lt_iffF (ha : Is a y) (hb : Is b z) : Gen.lt a b ↔ y < z := ha.1.lt_iff hb.1
theorem Is.abs_le (ha : Is a y) : |y| ≤ R.max := by
  rcases ha.2 with h | h
  · rw [h, abs_zero]; exact zero_le_one.trans R.max_ge
  · exact h.2
theorem Is.fl_eq (ha : Is a y) : fl R y = y := fl_in ha.2

/-! ### sums -/

theorem foldl_is (l : List (Ranged R)) : ∀ (s : Ranged R) (S : ℝ) (v : ℕ → ℝ), Is s S → (∀ k (hk : k < l.length), Is l[k] (v k)) →
    |S| + ∑ k ∈ Finset.range l.length, |v k| ≤ R.max →
    ∃ S', Is (l.foldl (fun s a => (⟨R.fit (s.x + a.x)⟩ : Ranged R)) s) S' ∧
      |S' - (S + ∑ k ∈ Finset.range l.length, v k)| ≤ l.length * R.tiny ∧ |S'| ≤ |S| + ∑ k ∈ Finset.range l.length, |v k| := by
  induction l with
  | nil => intro s S v hs _ _; exact ⟨S, hs, by simp, by simp⟩
  | cons x l ih =>
    intro s S v hs hl hm
    have e : ∀ f : ℕ → ℝ, ∑ k ∈ Finset.range (x :: l).length, f k = f 0 + ∑ k ∈ Finset.range l.length, f (k + 1) := by
      intro f; rw [List.length_cons, Finset.sum_range_succ']; ring
    rw [e] at hm
    rw [e, e]
    have hx : Is x (v 0) := by have := hl 0 (by simp); simpa using this
    have hn : 0 ≤ ∑ k ∈ Finset.range l.length, |v (k + 1)| := Finset.sum_nonneg fun _ _ => abs_nonneg _
    have h0 : |S + v 0| ≤ |S| + |v 0| := abs_add_le _ _
    have h1 := hs.addF hx (h0.trans (by linarith))
    have h2 := fl_abs (R := R) (S + v 0)
    obtain ⟨S', hS', d, u⟩ := ih (s + x) _ (fun k => v (k + 1)) h1 (fun k hk => by have := hl (k + 1) (by simpa using hk); simpa using this) (by linarith)
    refine ⟨S', hS', ?_, by linarith⟩
    have h3 := abs_le.1 (fl_near (R := R) (S + v 0))
    have h4 := abs_le.1 d
    rw [List.length_cons, Nat.cast_succ, add_mul, one_mul, abs_le]
    constructor <;> linarith [h3.1, h3.2, h4.1, h4.2]

/-- a sum is exact up to one flush per term -/
theorem is_sum {x : Fin n → Ranged R} {v : Fin n → ℝ} (hx : ∀ i, Is (x i) (v i)) (hm : ∑ i, |v i| ≤ R.max) :
    ∃ S, Is (Flt.sum x) S ∧ |S - ∑ i, v i| ≤ n * R.tiny ∧ |S| ≤ ∑ i, |v i| := by
  have e : ∀ f : Fin n → ℝ, ∑ k ∈ Finset.range (List.ofFn x).length, (if h : k < n then f ⟨k, h⟩ else 0) = ∑ i, f i := fun f => by
    rw [List.length_ofFn, ← Fin.sum_univ_eq_sum_range (fun k => if h : k < n then f ⟨k, h⟩ else 0) n]
    exact Finset.sum_congr rfl fun i _ => by simp
  have e' : ∑ k ∈ Finset.range (List.ofFn x).length, |if h : k < n then v ⟨k, h⟩ else 0| = ∑ i, |v i| := by
    rw [← e]; refine Finset.sum_congr rfl fun k _ => ?_
    split_ifs <;> simp
  obtain ⟨S, hS, d, u⟩ := foldl_is (List.ofFn x) ⟨.fin 0⟩ 0 (fun k => if h : k < n then v ⟨k, h⟩ else 0) ⟨Rep.fin 0, Or.inl rfl⟩
    (fun k hk => by
      have hk' : k < n := by simpa using hk
      simpa [hk'] using hx ⟨k, hk'⟩) (by rw [e', abs_zero, zero_add]; exact hm)
  refine ⟨S, hS, ?_, ?_⟩
  · rw [e, zero_add, List.length_ofFn] at d; exact d
  · rw [e', abs_zero, zero_add] at u; exact u

/-- a sum of a matrix -/
theorem is_sum2 {x : Fin n → Fin m → Ranged R} {v : Fin n → Fin m → ℝ} (hx : ∀ i j, Is (x i j) (v i j)) (hm : ∑ i, ∑ j, |v i j| ≤ R.max) :
    ∃ S, Is (Gen.sum2 x) S ∧ |S - ∑ i, ∑ j, v i j| ≤ n * (m + 1) * R.tiny := by
  have hrow : ∀ i, ∑ j, |v i j| ≤ R.max := fun i =>
    (Finset.single_le_sum (f := fun i => ∑ j, |v i j|) (fun i _ => Finset.sum_nonneg fun _ _ => abs_nonneg _) (Finset.mem_univ i)).trans hm
  choose r hr dr ur using fun i => is_sum (hx i) (hrow i)
  obtain ⟨S, hS, d, -⟩ := is_sum hr ((Finset.sum_le_sum fun i _ => ur i).trans hm)
  refine ⟨S, hS, ?_⟩
  have h1 : |∑ i, r i - ∑ i, ∑ j, v i j| ≤ n * (m * R.tiny) := by
    rw [← Finset.sum_sub_distrib]
    refine (Finset.abs_sum_le_sum_abs _ _).trans ((Finset.sum_le_sum fun i _ => dr i).trans ?_)
    simp
  calc |S - ∑ i, ∑ j, v i j| ≤ |S - ∑ i, r i| + |∑ i, r i - ∑ i, ∑ j, v i j| := abs_sub_le _ _ _
    _ ≤ n * R.tiny + n * (m * R.tiny) := add_le_add d h1
    _ = _ := by ring

/-! ### interpolation -/

section
variable [Jnp.Dtype] {xp fp : Fin (n + 2) → Ranged R} {X F : Fin (n + 2) → ℝ}

open Classical in
/-- the value of `jnp.interp` in a table with cells that are not degenerate -/
noncomputable def interpF (R : Range) (X F : Fin (n + 2) → ℝ) (x : ℝ) : ℝ :=
  if X (Fin.last (n + 1)) < x then F (Fin.last (n + 1)) else if x < X 0 then F 0 else
    let i := Jnp.interpCell X x
    fl R (F i.castSucc + fl R (fl R (fl R (x - X i.castSucc) / (X i.succ - X i.castSucc)) * fl R (F i.succ - F i.castSucc)))

/-- within a cell -/
theorem interpF_cell {x x0 x1 f0 f1 : ℝ} (h0 : x0 ≤ x) (h1 : x ≤ x1) (hx : R.tiny ≤ x1 - x0) (hf : f0 ≤ f1) (e0 : fl R f0 = f0) (e1 : fl R f1 = f1) :
    (0 ≤ fl R (x - x0) ∧ fl R (x - x0) ≤ x1 - x0) ∧ (0 ≤ fl R (fl R (x - x0) / (x1 - x0)) ∧ fl R (fl R (x - x0) / (x1 - x0)) ≤ 1) ∧
    (0 ≤ fl R (f1 - f0) ∧ fl R (f1 - f0) ≤ f1 - f0) ∧
    (f0 ≤ fl R (f0 + fl R (fl R (fl R (x - x0) / (x1 - x0)) * fl R (f1 - f0))) ∧ fl R (f0 + fl R (fl R (fl R (x - x0) / (x1 - x0)) * fl R (f1 - f0))) ≤ f1) := by
  have hp : 0 < x1 - x0 := R.tiny_pos.trans_le hx
  have a0 : 0 ≤ fl R (x - x0) := fl_nonneg (by linarith)
  have a1 : fl R (x - x0) ≤ x1 - x0 := (fl_le (by linarith)).trans (by linarith)
  have b0 : 0 ≤ fl R (x - x0) / (x1 - x0) := div_nonneg a0 hp.le
  have b1 : fl R (x - x0) / (x1 - x0) ≤ 1 := by rw [div_le_one hp]; exact a1
  have c0 : 0 ≤ fl R (fl R (x - x0) / (x1 - x0)) := fl_nonneg b0
  have c1 := (fl_le (R := R) b0).trans b1
  have d0 : 0 ≤ fl R (f1 - f0) := fl_nonneg (by linarith)
  have d1 : fl R (f1 - f0) ≤ f1 - f0 := fl_le (by linarith)
  have g0 := mul_nonneg c0 d0
  have g1 := (mul_le_of_le_one_left d0 c1).trans d1
  have p0 := fl_nonneg (R := R) g0
  have p1 := (fl_le (R := R) g0).trans g1
  refine ⟨⟨a0, a1⟩, ⟨c0, c1⟩, ⟨d0, d1⟩, ?_, ?_⟩
  · have := fl_mono (R := R) (show f0 ≤ f0 + fl R (fl R (fl R (x - x0) / (x1 - x0)) * fl R (f1 - f0)) by linarith)
    rwa [e0] at this
  · have := fl_mono (R := R) (show f0 + fl R (fl R (fl R (x - x0) / (x1 - x0)) * fl R (f1 - f0)) ≤ f1 by linarith)
    rwa [e1] at this

/-- the abscissae of a table increase by more than the threshold of `jnp.interp` -/
def Cells (R : Range) (X : Fin (n + 2) → ℝ) : Prop :=
  Monotone X ∧ ∀ i : Fin (n + 1), Jnp.Dtype.interpEps < X i.succ - X i.castSucc ∧ R.tiny ≤ X i.succ - X i.castSucc

theorem interpF_mem (hX : Cells R X) (hF : Monotone F) (hf : ∀ j, fl R (F j) = F j) {x : ℝ} (h0 : ¬ X (Fin.last (n + 1)) < x) (h1 : ¬ x < X 0) :
    F (Jnp.interpCell X x).castSucc ≤ interpF R X F x ∧ interpF R X F x ≤ F (Jnp.interpCell X x).succ := by
  have hl := Jnp.interpCell_left hX.1 (not_lt.1 h1)
  have hr := Jnp.interpCell_right hX.1 (not_lt.1 h0)
  unfold interpF
  rw [if_neg h0, if_neg h1]
  exact (interpF_cell hl hr (hX.2 _).2 (hF Fin.castSucc_lt_succ.le) (hf _) (hf _)).2.2.2

theorem interpF_bounds (hX : Cells R X) (hF : Monotone F) (hf : ∀ j, fl R (F j) = F j) (x : ℝ) :
    F 0 ≤ interpF R X F x ∧ interpF R X F x ≤ F (Fin.last (n + 1)) := by
  by_cases h0 : X (Fin.last (n + 1)) < x
  · unfold interpF; rw [if_pos h0]; exact ⟨hF (Fin.zero_le _), le_rfl⟩
  by_cases h1 : x < X 0
  · unfold interpF; rw [if_neg h0, if_pos h1]; exact ⟨le_rfl, hF (Fin.zero_le _)⟩
  have := interpF_mem hX hF hf h0 h1
  exact ⟨(hF (Fin.zero_le _)).trans this.1, this.2.trans (hF (Fin.le_last _))⟩

theorem interpF_mono (hX : Cells R X) (hF : Monotone F) (hf : ∀ j, fl R (F j) = F j) : Monotone (interpF R X F) := by
  intro x y hxy
  by_cases h0 : X (Fin.last (n + 1)) < y
  · refine (interpF_bounds hX hF hf x).2.trans ?_
    unfold interpF; rw [if_pos h0]
  by_cases h1 : x < X 0
  · refine le_trans ?_ (interpF_bounds hX hF hf y).1
    unfold interpF; rw [if_neg (fun h => h0 (h.trans_le hxy)), if_pos h1]
  have h0' : ¬ X (Fin.last (n + 1)) < x := fun h => h0 (h.trans_le hxy)
  have h1' : ¬ y < X 0 := fun h => h1 (hxy.trans_lt h)
  rcases (Jnp.interpCell_mono X hxy).lt_or_eq with h | h
  · refine (interpF_mem hX hF hf h0' h1).2.trans (le_trans (hF ?_) (interpF_mem hX hF hf h0 h1').1)
    rw [Fin.lt_def] at h
    rw [Fin.le_def]; simpa using h
  · have hp : 0 < X (Jnp.interpCell X y).succ - X (Jnp.interpCell X y).castSucc := R.tiny_pos.trans_le (hX.2 _).2
    have hd : 0 ≤ fl R (F (Jnp.interpCell X y).succ - F (Jnp.interpCell X y).castSucc) := fl_nonneg (sub_nonneg.2 (hF Fin.castSucc_lt_succ.le))
    unfold interpF
    rw [if_neg h0, if_neg h0', if_neg h1, if_neg h1']
    simp only [h]
    refine fl_mono (add_le_add le_rfl (fl_mono (mul_le_mul_of_nonneg_right (fl_mono ?_) hd)))
    exact div_le_div_of_nonneg_right (fl_mono (by linarith)) hp.le

/-- beyond an abscissa the value is beyond the ordinate there -/
theorem interpF_ge (hX : Cells R X) (hF : Monotone F) (hf : ∀ j, fl R (F j) = F j) {x : ℝ} {i : Fin (n + 2)} (h : X i < x) : F i ≤ interpF R X F x := by
  by_cases h0 : X (Fin.last (n + 1)) < x
  · unfold interpF; rw [if_pos h0]; exact hF (Fin.le_last _)
  have h1 : ¬ x < X 0 := not_lt.2 ((hX.1 (Fin.zero_le _)).trans h.le)
  refine le_trans (hF ?_) (interpF_mem hX hF hf h0 h1).1
  have hr := Jnp.interpCell_right hX.1 (not_lt.1 h0)
  by_contra hc
  rw [not_le] at hc
  have h2 : (Jnp.interpCell X x).succ ≤ i := by
    rw [Fin.lt_def] at hc
    rw [Fin.le_def]; simp at hc ⊢; omega
  have h3 := hX.1 h2
  linarith
theorem interpF_le (hX : Cells R X) (hF : Monotone F) (hf : ∀ j, fl R (F j) = F j) {x : ℝ} {i : Fin (n + 2)} (h : x < X i) : interpF R X F x ≤ F i := by
  have h0 : ¬ X (Fin.last (n + 1)) < x := not_lt.2 (h.le.trans (hX.1 (Fin.le_last _)))
  by_cases h1 : x < X 0
  · unfold interpF; rw [if_neg h0, if_pos h1]; exact hF (Fin.zero_le _)
  refine (interpF_mem hX hF hf h0 h1).2.trans (hF ?_)
  have hl := Jnp.interpCell_left hX.1 (not_lt.1 h1)
  by_contra hc
  rw [not_le] at hc
  have h2 : i ≤ (Jnp.interpCell X x).castSucc := by
    rw [Fin.lt_def] at hc
    rw [Fin.le_def]; simp at hc ⊢; omega
  have h3 := hX.1 h2
  linarith

/-- the program computes `interpF` -/
theorem is_interp (hX : Cells R X) (hp : ∀ j, Is (xp j) (X j)) (hq : ∀ j, Is (fp j) (F j)) (hF : Monotone F)
    (hXm : X (Fin.last (n + 1)) - X 0 ≤ R.max) (hFm : F (Fin.last (n + 1)) - F 0 ≤ R.max) {x' : Ranged R} {x : ℝ} (hx : Is x' x) :
    Is (Gen.interp x' xp fp) (interpF R X F x) := by
  have hf : ∀ j, fl R (F j) = F j := fun j => (hq j).fl_eq
  unfold Gen.interp Gen.interpLR interpF
  have hc : Gen.interpCell xp x' = Jnp.interpCell X x := cell_eq (fun j => (hp j).1) hx.1
  rw [hc]
  set i := Jnp.interpCell X x with hi'
  have htk : ∀ (u : Fin (n + 2) → Ranged R) (k : Fin (n + 2)), Flt.take u k = u k := fun u k => rfl
  simp only [htk]
  refine is_sel (lt_iffF (hp _) hx) (fun _ => hq _) fun h0 => is_sel (lt_iffF hx (hp _)) (fun _ => hq _) fun h1 => ?_
  have hxl : X i.castSucc ≤ x := Jnp.interpCell_left hX.1 (not_lt.1 h1)
  have hxr : x ≤ X i.succ := Jnp.interpCell_right hX.1 (not_lt.1 h0)
  obtain ⟨hr1, hr2⟩ := hX.2 i
  have hpos : 0 < X i.succ - X i.castSucc := R.tiny_pos.trans_le hr2
  have hXc : X i.succ - X i.castSucc ≤ R.max := by
    have := hX.1 (Fin.le_last i.succ); have := hX.1 (Fin.zero_le i.castSucc); linarith
  have hFi := hF (Fin.castSucc_lt_succ (i := i)).le
  have hFc : F i.succ - F i.castSucc ≤ R.max := by
    have := hF (Fin.le_last i.succ); have := hF (Fin.zero_le i.castSucc); linarith
  have hdx : Is (xp i.succ - xp i.castSucc) (X i.succ - X i.castSucc) :=
    (hp _).sub (hp _) (Or.inr ⟨by rwa [abs_of_pos hpos], by rwa [abs_of_pos hpos]⟩)
  have hdx0 : ¬ XFSed.abs (Flt.value (xp i.succ - xp i.castSucc)) ≤ XF.fin Jnp.Dtype.interpEps := by
    intro h
    have := ((rep_abs hdx.1).le_iff (Rep.fin _)).1 h
    rw [abs_of_pos hpos] at this
    linarith
  have hsel : ∀ (c : Prop) (u v : Ranged R), ¬ c → Flt.sel c u v = v := fun c u v h => if_neg h
  simp only [hsel _ _ _ hdx0]
  obtain ⟨⟨a0, a1⟩, ⟨c0, c1⟩, ⟨d0, d1⟩, v0, v1⟩ := interpF_cell (R := R) hxl hxr hr2 hFi (hf _) (hf _)
  have hM := R.max_ge
  have e1 : Is (x' - xp i.castSucc) (fl R (x - X i.castSucc)) := hx.subF (hp _) (by rw [abs_of_nonneg (by linarith)]; linarith)
  have e2 := e1.divF hdx hpos.ne' (by
    rw [abs_of_nonneg (div_nonneg a0 hpos.le)]
    refine le_trans ?_ hM
    rw [div_le_one hpos]; exact a1)
  have e3 : Is (fp i.succ - fp i.castSucc) (fl R (F i.succ - F i.castSucc)) := (hq _).subF (hq _) (by rw [abs_of_nonneg (by linarith)]; exact hFc)
  have g0 := mul_nonneg c0 d0
  have g1 := (mul_le_of_le_one_left d0 c1).trans d1
  have e4 := e2.mulF e3 (by rw [abs_of_nonneg g0]; linarith)
  have p0 := fl_nonneg (R := R) g0
  have p1 := (fl_le (R := R) g0).trans g1
  refine (hq _).addF e4 ?_
  have := (hq i.castSucc).abs_le; have h6 := (hq i.succ).abs_le
  rw [abs_le] at *
  constructor <;> linarith [this.1, h6.2]

end

end Dsps.Lemmas
