import Verif.Lemmas.RangeGrid

/-! Stellar masses on floats with a finite range. -/
namespace Dsps.Lemmas
open XF Range Dsps.Props Dsps.Constants

variable {R : Range} {a b : Ranged R} {y z A B : ℝ} {n m p q : ℕ}

/-! ### the cumulative integral -/

theorem gen_scan_zero {α : Type} [Flt α] (c : α × α × α) (x y : Fin (n + 1) → α) :
    (Jnp.scan Gen.cumtrapz_scan_func c fun i => (x i, y i)).2 0 = c.2.2 + (x 0 - c.1) * (y 0 + c.2.1) / Flt.lit 2.0 := by
  simp only [Jnp.scan, Gen.cumtrapz_scan_func, Fin.cons_zero]

theorem gen_scan_succ {α : Type} [Flt α] (c : α × α × α) (x y : Fin (n + 1) → α) (k : Fin n) :
    (Jnp.scan Gen.cumtrapz_scan_func c fun i => (x i, y i)).2 k.succ =
      (Jnp.scan Gen.cumtrapz_scan_func c fun i => (x i, y i)).2 k.castSucc + (x k.succ - x k.castSucc) * (y k.succ + y k.castSucc) / Flt.lit 2.0 := by
  induction n generalizing c with
  | zero => exact k.elim0
  | succ n ih =>
    rw [Jnp.scan]
    simp only [Fin.cons_succ]
    refine Fin.cases ?_ (fun j => ?_) k
    · rw [Fin.castSucc_zero, Fin.cons_zero]
      rw [gen_scan_zero _ (fun i => x i.succ) (fun i => y i.succ)]
      simp only [Gen.cumtrapz_scan_func]
    · rw [← Fin.succ_castSucc, Fin.cons_succ]
      exact ih _ (fun i => x i.succ) (fun i => y i.succ) j

/-- the cumulative integral of a positive function is computed exactly -/
theorem is_cumtrapz (hR : Wide R) {xs ys : Fin (n + 1) → Ranged R} {X Y : Fin (n + 1) → ℝ} (hx : ∀ i, Is (xs i) (X i)) (hy : ∀ i, Is (ys i) (Y i))
    (hg : ∀ i : Fin n, X i.castSucc + 1e-3 ≤ X i.succ) (h0 : 0 ≤ X 0) (h1 : ∀ i, X i ≤ 100) (hY : ∀ i, 1e-14 ≤ Y i ∧ Y i ≤ 1e8) :
    (∀ i, Is (Gen.cumtrapz xs ys i) (Utils.cumtrapz X Y i) ∧ 0 ≤ Utils.cumtrapz X Y i ∧ Utils.cumtrapz X Y i ≤ 1e8 * (X i - X 0)) ∧
    ∀ i : Fin n, 1e-17 ≤ Utils.cumtrapz X Y i.succ - Utils.cumtrapz X Y i.castSucc := by
  have hM := hR.max
  have l2 : Is (Flt.lit 2.0 : Ranged R) 2.0 := hR.lit (by norm_num) (by norm_num)
  have hinc : ∀ i : Fin n, 1e-17 ≤ (X i.succ - X i.castSucc) * (Y i.succ + Y i.castSucc) / 2 ∧
      (X i.succ - X i.castSucc) * (Y i.succ + Y i.castSucc) / 2 ≤ 1e8 * (X i.succ - X i.castSucc) := fun i => by
    have a := hg i; have b := hY i.succ; have c := hY i.castSucc
    have d : 1e-3 ≤ X i.succ - X i.castSucc := by linarith
    constructor
    · have : (1e-3:ℝ) * 2e-14 ≤ (X i.succ - X i.castSucc) * (Y i.succ + Y i.castSucc) := mul_le_mul d (by linarith) (by norm_num) (by linarith)
      linarith
    · have : (X i.succ - X i.castSucc) * (Y i.succ + Y i.castSucc) ≤ (X i.succ - X i.castSucc) * 2e8 := mul_le_mul_of_nonneg_left (by linarith) (by linarith)
      linarith
  refine ⟨fun i => ?_, fun i => by rw [cumtrapz_succ]; linarith [(hinc i).1]⟩
  induction i using Fin.induction with
  | zero =>
    rw [cumtrapz_zero]
    refine ⟨?_, le_rfl, by simp⟩
    unfold Gen.cumtrapz
    rw [gen_scan_zero]
    have e1 : Is (xs 0 - xs 0) 0 := (((hx 0).sub (hx 0) (Or.inl (sub_self _)))).congr (sub_self _)
    have e2 : Is (ys 0 + ys 0) (Y 0 + Y 0) := (hy 0).add (hy 0) (Or.inr (hR.in_pos (by linarith [(hY 0).1]) (by linarith [(hY 0).2])))
    have e3 : Is ((xs 0 - xs 0) * (ys 0 + ys 0)) 0 := (e1.mul e2 (Or.inl (zero_mul _))).congr (zero_mul _)
    have e4 : Is ((xs 0 - xs 0) * (ys 0 + ys 0) / Flt.lit 2.0) 0 := (e3.div l2 (by norm_num) (Or.inl (zero_div _))).congr (zero_div _)
    exact (is_lit (Or.inl rfl)).zero_add e4
  | succ i ih =>
    obtain ⟨i1, i2, i3⟩ := ih
    have hI := hinc i
    have a := hg i; have b := hY i.succ; have c := hY i.castSucc
    have x0 : 0 ≤ X i.castSucc := by
      have : Monotone X := Fin.monotone_iff_le_succ.2 fun j => by linarith [hg j]
      exact h0.trans (this (Fin.zero_le _))
    have x1 := h1 i.succ
    have e1 : Is (xs i.succ - xs i.castSucc) (X i.succ - X i.castSucc) := (hx _).sub (hx _) (Or.inr (hR.in_pos (by linarith) (by linarith)))
    have e2 : Is (ys i.succ + ys i.castSucc) (Y i.succ + Y i.castSucc) := (hy _).add (hy _) (Or.inr (hR.in_pos (by linarith) (by linarith)))
    have e3 := e1.mul e2 (Or.inr (hR.in_pos (by linarith) (by linarith)))
    have e4 : Is ((xs i.succ - xs i.castSucc) * (ys i.succ + ys i.castSucc) / Flt.lit 2.0) ((X i.succ - X i.castSucc) * (Y i.succ + Y i.castSucc) / 2) :=
      (e3.div l2 (by norm_num) (Or.inr (hR.in_pos (by norm_num at *; linarith) (by norm_num at *; linarith)))).congr (by norm_num)
    have e5 : Is (Gen.cumtrapz xs ys i.succ) (Utils.cumtrapz X Y i.succ) := by
      rw [cumtrapz_succ]
      unfold Gen.cumtrapz at i1 ⊢
      rw [gen_scan_succ]
      exact i1.add e4 (Or.inr (hR.in_pos (by linarith) (by linarith)))
    refine ⟨e5, ?_, ?_⟩
    · rw [cumtrapz_succ]; linarith
    · rw [cumtrapz_succ]; linarith

/-- **Specification.**  The star formation histories considered: times in Gyr between 0.01 and 100, more than a million years apart, rates of at most `1e8` Msun/yr (zero allowed). -/
structure OrdinaryHistory (t sfr : Fin (n + 2) → ℝ) : Prop where
  first : 0.011 ≤ t 0
  last : t (Fin.last (n + 1)) ≤ 100
  step : ∀ i : Fin (n + 1), t i.castSucc + 1e-3 ≤ t i.succ
  rate : ∀ i, 0 ≤ sfr i ∧ sfr i ≤ 1e8

variable {t sfr : Fin (n + 2) → ℝ} {s0 : ℝ}

theorem OrdinaryHistory.strict (H : OrdinaryHistory t sfr) : StrictMono t := Fin.strictMono_iff_lt_succ.2 fun i => by linarith [H.step i]
theorem OrdinaryHistory.lo (H : OrdinaryHistory t sfr) (i : Fin (n + 2)) : 0.011 ≤ t i := H.first.trans (H.strict.monotone (Fin.zero_le _))
theorem OrdinaryHistory.hi (H : OrdinaryHistory t sfr) (i : Fin (n + 2)) : t i ≤ 100 := (H.strict.monotone (Fin.le_last _)).trans H.last

/-- the stellar mass formed by each time of the table -/
noncomputable def massTable (t sfr : Fin (n + 2) → ℝ) (s0 : ℝ) : Fin (n + 2) → ℝ := Utils.cumulative_mstar_formed t fun j => max s0 (sfr j)

/-- the floored rates -/
theorem is_floored (hR : Wide R) (H : OrdinaryHistory t sfr) (h0 : 1e-14 ≤ s0) (h1 : s0 ≤ 1e8) (i : Fin (n + 2)) :
    Is (Flt.sel (Gen.lt (Flt.lit (sfr i)) (Flt.lit s0 : Ranged R)) (Flt.lit s0 : Ranged R) (Flt.lit (sfr i))) (max s0 (sfr i)) := by
  have hM := hR.max
  have hs : Is (Flt.lit s0 : Ranged R) s0 := hR.lit (by linarith) (by linarith)
  have hr := H.rate i
  have hl : Is (Flt.lit (sfr i) : Ranged R) (fl R (sfr i)) := is_litF (by rw [abs_of_nonneg hr.1]; linarith)
  have h := is_sel (lt_iffF hl hs) (fun _ => hs) (fun _ => hl)
  refine h.congr ?_
  have ht : R.tiny < s0 := lt_of_le_of_lt hR.tiny (by linarith)
  by_cases hy : |sfr i| < R.tiny
  · have e : fl R (sfr i) = 0 := if_pos hy
    rw [e, if_pos (by linarith), max_eq_left]
    rw [abs_of_nonneg hr.1] at hy; linarith
  · have e : fl R (sfr i) = sfr i := if_neg hy
    rw [e]
    split_ifs with h
    · rw [max_eq_left h.le]
    · rw [max_eq_right (not_lt.1 h)]

/-- the masses are computed exactly -/
theorem is_masses (hR : Wide R) (H : OrdinaryHistory t sfr) (h0 : 1e-14 ≤ s0) (h1 : s0 ≤ 1e8) :
    (∀ i, Is (Gen.cumulative_mstar_formed (fun j => (Flt.lit (t j) : Ranged R))
        (fun j => Flt.sel (Gen.lt (Flt.lit (sfr j)) (Flt.lit s0 : Ranged R)) (Flt.lit s0 : Ranged R) (Flt.lit (sfr j))) i) (massTable t sfr s0 i) ∧
      1e-8 ≤ massTable t sfr s0 i ∧ massTable t sfr s0 i ≤ 1e19) ∧
    ∀ i : Fin (n + 1), massTable t sfr s0 i.castSucc + 1e-8 ≤ massTable t sfr s0 i.succ := by
  have hx : ∀ i, Is (Jnp.setTail (Jnp.setAt (Gen.zeros (n + 3)) 0 (Flt.lit T_BIRTH_MIN)) (fun j => (Flt.lit (t j) : Ranged R)) i)
      (Jnp.setTail (Jnp.setAt (Jnp.zeros (n + 3)) 0 T_BIRTH_MIN) t i) := rng_setTail (P := fun a y => Is a y)
    (rng_setAt (P := fun a y => Is a y) (fun _ => is_lit (Or.inl rfl)) _ (hR.lit (by norm_num [T_BIRTH_MIN]) (by norm_num [T_BIRTH_MIN])))
    fun i => hR.lit (by linarith [H.lo i]) (by linarith [H.hi i])
  have hy : ∀ i, Is (Jnp.setTail (Jnp.setAt (Gen.zeros (n + 3)) 0 (Flt.lit SFR_MIN))
      (fun j => Flt.sel (Gen.lt (Flt.lit (sfr j)) (Flt.lit s0 : Ranged R)) (Flt.lit s0 : Ranged R) (Flt.lit (sfr j))) i)
      (Jnp.setTail (Jnp.setAt (Jnp.zeros (n + 3)) 0 SFR_MIN) (fun j => max s0 (sfr j)) i) := rng_setTail (P := fun a y => Is a y)
    (rng_setAt (P := fun a y => Is a y) (fun _ => is_lit (Or.inl rfl)) _ (hR.lit (by norm_num [SFR_MIN]) (by norm_num [SFR_MIN])))
    fun i => is_floored hR H h0 h1 i
  have ex0 : Jnp.setTail (Jnp.setAt (Jnp.zeros (n + 3)) 0 T_BIRTH_MIN) t 0 = 0.001 := by simp [Jnp.setTail, Jnp.setAt, T_BIRTH_MIN]
  have exs : ∀ i : Fin (n + 2), Jnp.setTail (Jnp.setAt (Jnp.zeros (n + 3)) 0 T_BIRTH_MIN) t i.succ = t i := fun i => by simp [Jnp.setTail]
  have ey0 : Jnp.setTail (Jnp.setAt (Jnp.zeros (n + 3)) 0 SFR_MIN) (fun j => max s0 (sfr j)) 0 = 1e-14 := by simp [Jnp.setTail, Jnp.setAt, SFR_MIN]
  have eys : ∀ i : Fin (n + 2), Jnp.setTail (Jnp.setAt (Jnp.zeros (n + 3)) 0 SFR_MIN) (fun j => max s0 (sfr j)) i.succ = max s0 (sfr i) := fun i => by simp [Jnp.setTail]
  obtain ⟨c1, c2⟩ := is_cumtrapz hR hx hy (fun i => by
      induction i using Fin.cases with
      | zero => rw [Fin.castSucc_zero, ex0, exs]; linarith [H.first]
      | succ i => rw [← Fin.succ_castSucc, exs, exs]; exact H.step i)
    (by rw [ex0]; norm_num) (fun i => by
      induction i using Fin.cases with
      | zero => rw [ex0]; norm_num
      | succ i => rw [exs]; exact H.hi i)
    (fun i => by
      induction i using Fin.cases with
      | zero => rw [ey0]; norm_num
      | succ i => rw [eys]; exact ⟨h0.trans (le_max_left _ _), max_le h1 (H.rate i).2⟩)
  have hb : ∀ i, 1e-8 ≤ massTable t sfr s0 i ∧ massTable t sfr s0 i ≤ 1e19 := fun i => by
    obtain ⟨-, -, d2⟩ := c1 i.succ
    have d0 := (c1 i.castSucc).2.1
    have d1 := c2 i
    rw [exs, ex0] at d2
    have := H.hi i
    unfold massTable Utils.cumulative_mstar_formed Jnp.tail
    simp only [Utils.YEAR_PER_GYR]
    constructor
    · linarith
    · linarith
  refine ⟨fun i => ⟨?_, hb i⟩, fun i => ?_⟩
  · have := (c1 i.succ).1.mul (hR.lit (y := Utils.YEAR_PER_GYR) (by norm_num [Utils.YEAR_PER_GYR]) (by norm_num [Utils.YEAR_PER_GYR]))
      (Or.inr (hR.in_pos (le_trans (by norm_num) (hb i).1) ((hb i).2.trans (by norm_num))))
    exact this
  · have := c2 i.succ
    unfold massTable Utils.cumulative_mstar_formed Jnp.tail
    simp only [Utils.YEAR_PER_GYR]
    rw [← Fin.succ_castSucc] at this
    linarith

end Dsps.Lemmas
