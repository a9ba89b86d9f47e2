import Verif.Lemmas.Range
import Verif.Lemmas.Interp
import Verif.Lemmas.XFSed
import Verif.Model.Gen

/-! Interpolation, sums and integrals of non-negative numbers on floats with a finite range. -/
namespace Dsps.Lemmas
open XF Range

variable {R : Range} {a b : Ranged R} {y z lo hi lo' hi' : ℝ} {n m : ℕ}

/-- forced into the range, a number stays or is flushed to zero -/
theorem fit_rep {c : XF} (h : Rep c y) (hy : |y| ≤ R.max) : ∃ y', Rep (R.fit c) y' ∧ (y' = y ∨ y' = 0 ∧ |y| < R.tiny) := by
  by_cases ht : |y| < R.tiny
  · exact ⟨0, rep_fit_under h ht, Or.inr ⟨rfl, ht⟩⟩
  · exact ⟨y, rep_fit h (Or.inr ⟨not_lt.1 ht, hy⟩), Or.inl rfl⟩

/-- the interval is one of non-negative numbers of the range -/
def Span (R : Range) (lo hi : ℝ) : Prop := (lo = 0 ∨ R.tiny ≤ lo) ∧ hi ≤ R.max

theorem Span.nonneg (h : Span R lo hi) : 0 ≤ lo := h.1.elim (fun h => h.ge) (R.tiny_pos.le.trans ·)

/-- The float is a number between `lo` and `hi`. -/
def Btn (lo hi : ℝ) (a : Ranged R) : Prop := ∃ y, Rep a.x y ∧ lo ≤ y ∧ y ≤ hi

theorem btn_fit {c : XF} (h : Rep c y) (h1 : lo ≤ y) (h2 : y ≤ hi) (hs : Span R lo hi) : Btn lo hi (⟨R.fit c⟩ : Ranged R) := by
  have h0 := hs.nonneg
  have hy : |y| ≤ R.max := by rw [abs_of_nonneg (h0.trans h1)]; exact h2.trans hs.2
  obtain ⟨y', hr, rfl | ⟨rfl, ht⟩⟩ := fit_rep h hy
  · exact ⟨_, hr, h1, h2⟩
  · refine ⟨0, hr, ?_, h0.trans (h1.trans h2)⟩
    rcases hs.1 with e | e
    · exact e.le
    · rw [abs_of_nonneg (h0.trans h1)] at ht
      linarith

theorem Btn.mono (h : Btn lo hi a) (h1 : lo' ≤ lo) (h2 : hi ≤ hi') : Btn lo' hi' a := by
  obtain ⟨y, hr, h3, h4⟩ := h
  exact ⟨y, hr, h1.trans h3, h4.trans h2⟩

theorem btn_lit (h1 : lo ≤ y) (h2 : y ≤ hi) (hs : Span R lo hi) : Btn lo hi (Flt.lit y : Ranged R) := btn_fit (Rep.fin y) h1 h2 hs

theorem Btn.mul (ha : Btn lo hi a) (hb : Btn lo' hi' b) (h0 : 0 ≤ lo) (h0' : 0 ≤ lo') (hs : Span R (lo * lo') (hi * hi')) :
    Btn (lo * lo') (hi * hi') (a * b) := by
  obtain ⟨y, hr, h1, h2⟩ := ha
  obtain ⟨z, hr', h1', h2'⟩ := hb
  exact btn_fit (hr.mul hr') (mul_le_mul h1 h1' h0' (h0.trans h1)) (mul_le_mul h2 h2' (h0'.trans h1') (h0.trans (h1.trans h2))) hs

theorem Btn.add (ha : Btn lo hi a) (hb : Btn lo' hi' b) (hs : Span R (lo + lo') (hi + hi')) :
    Btn (lo + lo') (hi + hi') (a + b) := by
  obtain ⟨y, hr, h1, h2⟩ := ha
  obtain ⟨z, hr', h1', h2'⟩ := hb
  exact btn_fit (hr.add hr') (add_le_add h1 h1') (add_le_add h2 h2') hs

theorem Btn.div (ha : Btn lo hi a) (hb : Btn lo' hi' b) (h0 : 0 ≤ lo) (h0' : 0 < lo') (hs : Span R (lo / hi') (hi / lo')) :
    Btn (lo / hi') (hi / lo') (a / b) := by
  obtain ⟨y, hr, h1, h2⟩ := ha
  obtain ⟨z, hr', h1', h2'⟩ := hb
  have hz : 0 < z := h0'.trans_le h1'
  exact btn_fit (hr.div hr' hz.ne') (div_le_div₀ (h0.trans h1) h1 hz h2') (div_le_div₀ (h0.trans (h1.trans h2)) h2 h0' h1') hs

theorem Is.btn (h : Is a y) : Btn y y a := ⟨y, h.1, le_rfl, le_rfl⟩

/-- a difference of two numbers in the range in order -/
theorem Is.btn_sub (ha : Is a y) (hb : Is b z) (h : z ≤ y) (hz : 0 ≤ z) : Btn 0 (y - z) (a - b) := by
  refine btn_fit (ha.1.sub hb.1) (sub_nonneg.2 h) le_rfl ⟨Or.inl rfl, ?_⟩
  rcases ha.2 with e | e
  · rw [e]; linarith [R.max_ge]
  · have := e.2
    rw [abs_of_nonneg (hz.trans h)] at this
    linarith

/-! ### sums -/

theorem foldl_btn (l : List (Ranged R)) : ∀ (s : Ranged R) (A : ℝ) (B : ℕ → ℝ), Btn 0 A s → (∀ k (hk : k < l.length), Btn 0 (B k) l[k]) →
    (∀ k, 0 ≤ B k) → A + ∑ k ∈ Finset.range l.length, B k ≤ R.max →
    Btn 0 (A + ∑ k ∈ Finset.range l.length, B k) (l.foldl (fun s a => (⟨R.fit (s.x + a.x)⟩ : Ranged R)) s) ∧
    ∀ lo, R.tiny ≤ lo → (Btn lo A s ∨ ∃ k, ∃ hk : k < l.length, Btn lo (B k) l[k]) →
      Btn lo (A + ∑ k ∈ Finset.range l.length, B k) (l.foldl (fun s a => (⟨R.fit (s.x + a.x)⟩ : Ranged R)) s) := by
  induction l with
  | nil =>
    intro s A B hs _ _ _
    simp only [List.length_nil, Finset.range_zero, Finset.sum_empty, add_zero, List.foldl_nil]
    refine ⟨hs, fun lo _ h => ?_⟩
    rcases h with h | ⟨k, hk, -⟩
    · exact h
    · exact absurd hk (by simp)
  | cons x l ih =>
    intro s A B hs hl hB hm
    have e : ∑ k ∈ Finset.range (x :: l).length, B k = B 0 + ∑ k ∈ Finset.range l.length, B (k + 1) := by
      rw [List.length_cons, Finset.sum_range_succ']; ring
    rw [e] at hm ⊢
    have hsum : 0 ≤ ∑ k ∈ Finset.range l.length, B (k + 1) := Finset.sum_nonneg fun k _ => hB _
    have hx := hl 0 (by simp)
    simp only [List.getElem_cons_zero] at hx
    have hmax : A + B 0 ≤ R.max := by linarith
    have h1 : Btn 0 (A + B 0) (s + x) := by simpa using hs.add hx ⟨by simp, hmax⟩
    have h2 := ih (s + x) (A + B 0) (fun k => B (k + 1)) h1 (fun k hk => hl (k + 1) (by simpa using hk)) (fun k => hB _) (by linarith)
    rw [← add_assoc]
    refine ⟨h2.1, fun lo ht h => h2.2 lo ht ?_⟩
    rcases h with h | ⟨k, hk, h⟩
    · left
      simpa using h.add hx ⟨Or.inr (by simpa using ht), hmax⟩
    · rcases k with _ | k
      · left
        simp only [List.getElem_cons_zero] at h
        simpa using hs.add h ⟨Or.inr (by simpa using ht), hmax⟩
      · right
        exact ⟨k, by simpa using hk, by simpa using h⟩

/-- a sum of non-negative floats, one of which is at least `lo` -/
theorem btn_sum {x : Fin n → Ranged R} {B : Fin n → ℝ} (hx : ∀ i, Btn 0 (B i) (x i)) (hm : ∑ i, B i ≤ R.max) :
    Btn 0 (∑ i, B i) (Flt.sum x) ∧ ∀ lo, R.tiny ≤ lo → (∃ i, Btn lo (B i) (x i)) → Btn lo (∑ i, B i) (Flt.sum x) := by
  have hB : ∀ i, 0 ≤ B i := fun i => by obtain ⟨y, -, h1, h2⟩ := hx i; exact h1.trans h2
  have e : ∑ k ∈ Finset.range (List.ofFn x).length, (if h : k < n then B ⟨k, h⟩ else 0) = ∑ i, B i := by
    rw [List.length_ofFn, ← Fin.sum_univ_eq_sum_range (fun k => if h : k < n then B ⟨k, h⟩ else 0) n]
    exact Finset.sum_congr rfl fun i _ => by simp
  have h := foldl_btn (List.ofFn x) ⟨.fin 0⟩ 0 (fun k => if h : k < n then B ⟨k, h⟩ else 0) ⟨0, Rep.fin 0, le_rfl, le_rfl⟩
    (fun k hk => by
      have hk' : k < n := by simpa using hk
      simpa [hk'] using hx ⟨k, hk'⟩) (fun k => by split_ifs <;> simp [hB]) (by rw [e, zero_add]; exact hm)
  rw [e, zero_add] at h
  refine ⟨h.1, fun lo ht hi => h.2 lo ht (Or.inr ?_)⟩
  obtain ⟨i, hi⟩ := hi
  exact ⟨i, by simp, by simpa using hi⟩

/-! ### interpolation -/

section
variable [Jnp.Dtype] {x' : Ranged R} {x : ℝ} {xp fp : Fin (n + 2) → Ranged R} {X L : Fin (n + 2) → ℝ} {left right : Ranged R}

/-- interpolation in a table of non-negative numbers stays between their bounds -/
theorem btn_interp (hx : Is x' x) (hp : ∀ j, Is (xp j) (X j)) (hX : Monotone X) (hX0 : 0 ≤ X 0)
    (hr : ∀ i : Fin (n + 1), Jnp.Dtype.interpEps < X i.succ - X i.castSucc ∧ R.tiny ≤ X i.succ - X i.castSucc)
    (hf : ∀ j, Btn lo hi (fp j)) (hs : Span R lo hi) (h0 : X 0 ≤ x) (h1 : x ≤ X (Fin.last (n + 1))) :
    Btn lo hi (Gen.interpLR x' xp fp left right) := by
  have hlo := hs.nonneg
  unfold Gen.interpLR
  have hc : Gen.interpCell xp x' = Jnp.interpCell X x := cell_eq (fun j => (hp j).1) hx.1
  rw [hc]
  set i := Jnp.interpCell X x with hi'
  have hxl : X i.castSucc ≤ x := Jnp.interpCell_left hX h0
  have hxr : x ≤ X i.succ := Jnp.interpCell_right hX h1
  obtain ⟨hr1, hr2⟩ := hr i
  have hpos : 0 < X i.succ - X i.castSucc := R.tiny_pos.trans_le hr2
  have hXn : 0 ≤ X i.castSucc := hX0.trans (hX (Fin.zero_le _))
  obtain ⟨y0, hy0, l0, u0⟩ := hf i.castSucc
  obtain ⟨y1, hy1, l1, u1⟩ := hf i.succ
  have hlt1 : ¬ Gen.lt x' (xp 0) := by unfold Gen.lt; exact fun h => absurd ((hx.1.lt_iff (hp 0).1).1 h) (not_lt.2 h0)
  have hlt2 : ¬ Gen.lt (xp (Fin.last (n + 1))) x' := by unfold Gen.lt; exact fun h => absurd (((hp _).1.lt_iff hx.1).1 h) (not_lt.2 h1)
  have hXm : X i.succ ≤ R.max := by
    rcases (hp i.succ).2 with e | e
    · rw [e]; exact zero_le_one.trans R.max_ge
    · exact (le_abs_self _).trans e.2
  have hdx : Is (xp i.succ - xp i.castSucc) (X i.succ - X i.castSucc) :=
    (hp _).sub (hp _) (Or.inr ⟨by rwa [abs_of_pos hpos], by rw [abs_of_pos hpos]; linarith⟩)
  have hdx0 : ¬ XFSed.abs (Flt.value (xp i.succ - xp i.castSucc)) ≤ XF.fin Jnp.Dtype.interpEps := by
    intro h
    have := ((rep_abs hdx.1).le_iff (Rep.fin _)).1 h
    rw [abs_of_pos hpos] at this
    linarith
  have hsel : ∀ (c : Prop) (u v : Ranged R), ¬ c → Flt.sel c u v = v := fun c u v h => if_neg h
  have htk : ∀ (u : Fin (n + 2) → Ranged R) (k : Fin (n + 2)), Flt.take u k = u k := fun u k => rfl
  simp only [htk, hsel _ _ _ hlt1, hsel _ _ _ hlt2, hsel _ _ _ hdx0]
  show Btn lo hi (fp i.castSucc + (x' - xp i.castSucc) / (xp i.succ - xp i.castSucc) * (fp i.succ - fp i.castSucc))
  -- the ratio
  obtain ⟨q, hq, q0, q1⟩ : Btn 0 1 ((x' - xp i.castSucc) / (xp i.succ - xp i.castSucc)) := by
    have h3 := (hx.btn_sub (hp i.castSucc) hxl hXn).div hdx.btn le_rfl hpos ⟨Or.inl (by simp), by
      refine le_trans ?_ R.max_ge
      rw [div_le_one hpos]; linarith⟩
    exact h3.mono (by simp) (by rw [div_le_one hpos]; linarith)
  have hbound : ∀ t, 0 ≤ t → t ≤ 1 → lo ≤ y0 + t * (y1 - y0) ∧ y0 + t * (y1 - y0) ≤ hi := by
    intro t t0 t1
    constructor <;> nlinarith
  have hy1' : |y1 - y0| ≤ R.max := by rw [abs_le]; constructor <;> linarith [hs.2, l0.trans u0]
  obtain ⟨d, hd, hd'⟩ := fit_rep (hy1.sub hy0) hy1'
  have hqd : |q * d| ≤ R.max := by
    rw [abs_mul, abs_of_nonneg q0]
    have : |d| ≤ R.max := by
      rcases hd' with rfl | ⟨rfl, -⟩
      · exact hy1'
      · rw [abs_zero]; exact zero_le_one.trans R.max_ge
    exact (mul_le_of_le_one_left (abs_nonneg _) q1).trans this
  obtain ⟨p, hp', hpe⟩ := fit_rep (hq.mul hd) hqd
  obtain ⟨t, t0, t1, ht⟩ : ∃ t, 0 ≤ t ∧ t ≤ 1 ∧ p = t * (y1 - y0) := by
    rcases hpe with rfl | ⟨rfl, -⟩
    · rcases hd' with rfl | ⟨rfl, -⟩
      · exact ⟨q, q0, q1, rfl⟩
      · exact ⟨0, le_rfl, zero_le_one, by ring⟩
    · exact ⟨0, le_rfl, zero_le_one, by ring⟩
  refine btn_fit (y := y0 + p) (hy0.add hp') ?_ ?_ hs
  · rw [ht]; exact (hbound t t0 t1).1
  · rw [ht]; exact (hbound t t0 t1).2

/-- outside the table the given value is returned -/
theorem interp_outside (hx : Is x' x) (hp : ∀ j, Is (xp j) (X j)) (h : x < X 0 ∨ X (Fin.last (n + 1)) < x) :
    Gen.interpLR x' xp fp left left = left := by
  unfold Gen.interpLR
  have hsel : ∀ (c : Prop) (u v : Ranged R), Flt.sel c u v = u ∨ Flt.sel c u v = v := fun c u v => by
    by_cases h : c
    · left; exact if_pos h
    · right; exact if_neg h
  dsimp only
  rcases h with h | h
  · have : Gen.lt x' (xp 0) := (hx.1.lt_iff (hp 0).1).2 h
    have e : ∀ u : Ranged R, Flt.sel (Gen.lt x' (xp 0)) left u = left := fun u => if_pos this
    rw [e]
    rcases hsel (Gen.lt (xp (Fin.last (n + 1))) x') left left with h | h <;> exact h
  · have : Gen.lt (xp (Fin.last (n + 1))) x' := ((hp _).1.lt_iff hx.1).2 h
    exact if_pos this

end

/-! ### the integral -/

/-- the trapezoid integral of non-negative floats that are at most `H` over abscissae that span at most `W`, one cell of which has at least the width `d` and at one end at least
the value `h` -/
theorem btn_trapz {xs ys : Fin (m + 1) → Ranged R} {X : Fin (m + 1) → ℝ} {H : ℝ} (hx : ∀ i, Is (xs i) (X i)) (hX : Monotone X) (hX0 : 0 ≤ X 0)
    (hy : ∀ i, Btn 0 H (ys i)) (h2 : 2 * H ≤ R.max) (hm : (X (Fin.last m) - X 0) * (2 * H) ≤ R.max) (hhalf : R.In 0.5) :
    Btn 0 ((X (Fin.last m) - X 0) * H) (Gen.trapz xs ys) ∧
    ∀ (h d : ℝ) (i : Fin m), 0 < d → d ≤ X i.succ - X i.castSucc → R.tiny ≤ d → R.tiny ≤ h → R.tiny ≤ 0.5 * (d * h) →
      (Btn h H (ys i.castSucc) ∨ Btn h H (ys i.succ)) → Btn (0.5 * (d * h)) ((X (Fin.last m) - X 0) * H) (Gen.trapz xs ys) := by
  have hH : 0 ≤ H := by obtain ⟨y, -, h1, h2⟩ := hy 0; exact h1.trans h2
  have hXn : ∀ i, 0 ≤ X i := fun i => hX0.trans (hX (Fin.zero_le _))
  have htel : ∑ i : Fin m, (X i.succ - X i.castSucc) * (2 * H) = (X (Fin.last m) - X 0) * (2 * H) := by
    rw [← Finset.sum_mul, sum_telescope]
  have hcell : ∀ i : Fin m, (X i.succ - X i.castSucc) * (2 * H) ≤ R.max := fun i => by
    refine le_trans ?_ hm
    rw [← htel]
    exact Finset.single_le_sum (f := fun i : Fin m => (X i.succ - X i.castSucc) * (2 * H))
      (fun i _ => mul_nonneg (sub_nonneg.2 (hX (Fin.castSucc_lt_succ).le)) (by linarith)) (Finset.mem_univ i)
  have hterm : ∀ i : Fin m, Btn 0 ((X i.succ - X i.castSucc) * (2 * H)) (Gen.diff xs i * (Jnp.tail ys i + Jnp.init ys i)) := fun i => by
    have h3 : Btn 0 (X i.succ - X i.castSucc) (xs i.succ - xs i.castSucc) := (hx _).btn_sub (hx _) (hX (Fin.castSucc_lt_succ).le) (hXn _)
    have h4 : Btn 0 (2 * H) (ys i.succ + ys i.castSucc) := by
      have := (hy i.succ).add (hy i.castSucc) ⟨Or.inl (by simp), by linarith⟩
      rwa [add_zero, ← two_mul] at this
    have := h3.mul h4 le_rfl le_rfl ⟨Or.inl (by simp), hcell i⟩
    rwa [mul_zero] at this
  have hS := btn_sum hterm (by rw [htel]; exact hm)
  rw [htel] at hS
  have hl : Btn 0.5 0.5 (Flt.lit 0.5 : Ranged R) := (is_lit (Or.inr hhalf)).btn
  have e : (X (Fin.last m) - X 0) * H = 0.5 * ((X (Fin.last m) - X 0) * (2 * H)) := by ring
  have hW : 0 ≤ X (Fin.last m) - X 0 := sub_nonneg.2 (hX (Fin.zero_le _))
  have hsp : 0.5 * ((X (Fin.last m) - X 0) * (2 * H)) ≤ R.max := by
    have : 0 ≤ (X (Fin.last m) - X 0) * (2 * H) := by positivity
    linarith
  unfold Gen.trapz
  rw [e]
  refine ⟨by simpa using hl.mul hS.1 (by norm_num) le_rfl ⟨Or.inl (by simp), hsp⟩, fun h d i hd hdi htd hth hthd hyi => ?_⟩
  have hh : 0 < h := R.tiny_pos.trans_le hth
  refine hl.mul (hS.2 (d * h) ?_ ⟨i, ?_⟩) (by norm_num) (by positivity) ⟨Or.inr hthd, hsp⟩
  · have : 0 < d * h := by positivity
    linarith
  · have hdm : X i.succ - X i.castSucc ≤ R.max := by
      have h5 : X i.succ ≤ R.max := by
        rcases (hx i.succ).2 with e | e
        · rw [e]; exact zero_le_one.trans R.max_ge
        · exact (le_abs_self _).trans e.2
      linarith [hXn i.castSucc]
    have hp : 0 < X i.succ - X i.castSucc := hd.trans_le hdi
    have h3 : Btn d (X i.succ - X i.castSucc) (xs i.succ - xs i.castSucc) :=
      (((hx _).sub (hx _) (Or.inr ⟨by rw [abs_of_pos hp]; exact htd.trans hdi, by rwa [abs_of_pos hp]⟩)).btn).mono hdi le_rfl
    have h4 : Btn h (2 * H) (ys i.succ + ys i.castSucc) := by
      rcases hyi with h' | h'
      · have := (hy i.succ).add h' ⟨Or.inr (by simpa using hth), by linarith⟩
        rwa [zero_add, ← two_mul] at this
      · have := h'.add (hy i.castSucc) ⟨Or.inr (by simpa using hth), by linarith⟩
        rwa [add_zero, ← two_mul] at this
    refine h3.mul h4 hd.le hh.le ⟨Or.inr ?_, hcell i⟩
    have : 0 < d * h := by positivity
    linarith

end Dsps.Lemmas
