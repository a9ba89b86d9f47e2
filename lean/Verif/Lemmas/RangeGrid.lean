import Verif.Lemmas.RangeVal

/-! Bin edges on floats with a finite range: each is within a few times the smallest normal number of the exact one. -/
namespace Dsps.Lemmas
open XF Range Dsps.Props

variable {R : Range} {a b : Ranged R} {y z A B : ℝ} {n m p q : ℕ}

/-! ### arrays -/

section
variable {α β : Type} {P : α → β → Prop}

theorem rng_setAt {a : Fin n → α} {x : Fin n → β} (h : ∀ i, P (a i) (x i)) (j : Fin n) {b : α} {y : β} (hb : P b y) (i : Fin n) :
    P (Jnp.setAt a j b i) (Jnp.setAt x j y i) := by
  unfold Jnp.setAt
  by_cases hij : i = j
  · subst hij; rw [Function.update_self, Function.update_self]; exact hb
  · rw [Function.update_of_ne hij, Function.update_of_ne hij]; exact h i

theorem rng_setInit {a : Fin (n + 1) → α} {x : Fin (n + 1) → β} (h : ∀ i, P (a i) (x i)) {b : Fin n → α} {y : Fin n → β} (hb : ∀ i, P (b i) (y i))
    (i : Fin (n + 1)) : P (Jnp.setInit a b i) (Jnp.setInit x y i) := by
  unfold Jnp.setInit
  induction i using Fin.lastCases with
  | last => simpa using h _
  | cast i => simpa using hb i

theorem rng_setTail {a : Fin (n + 1) → α} {x : Fin (n + 1) → β} (h : ∀ i, P (a i) (x i)) {b : Fin n → α} {y : Fin n → β} (hb : ∀ i, P (b i) (y i))
    (i : Fin (n + 1)) : P (Jnp.setTail a b i) (Jnp.setTail x y i) := by
  unfold Jnp.setTail
  induction i using Fin.cases with
  | zero => simpa using h _
  | succ i => simpa using hb i

theorem rng_setInterior {a : Fin (n + 2) → α} {x : Fin (n + 2) → β} (h : ∀ i, P (a i) (x i)) {b : Fin n → α} {y : Fin n → β} (hb : ∀ i, P (b i) (y i))
    (i : Fin (n + 2)) : P (Jnp.setInterior a b i) (Jnp.setInterior x y i) :=
  rng_setTail h (fun i => rng_setInit (fun j => h j.succ) hb i) i
end

/-! ### nearly exact results -/

/-- The float is a number of magnitude at most `B`, up to `p` times the smallest normal number. -/
def Nr (p : ℕ) (B : ℝ) (a : Ranged R) (y : ℝ) : Prop := ∃ v, Is a v ∧ |v - y| ≤ p * R.tiny ∧ |y| ≤ B

theorem Nr.mono (h : Nr p A a y) (hp : p ≤ q) (hA : A ≤ B) : Nr q B a y := by
  obtain ⟨v, h1, h2, h3⟩ := h
  exact ⟨v, h1, h2.trans (mul_le_mul_of_nonneg_right (Nat.cast_le.2 hp) R.tiny_pos.le), h3.trans hA⟩

theorem tiny_mul (hR : Wide R) (hp : p ≤ 10 ^ 6) : (p : ℝ) * R.tiny ≤ 1e-30 := by
  have h1 : (p : ℝ) ≤ 10 ^ 6 := by exact_mod_cast hp
  calc (p : ℝ) * R.tiny ≤ 10 ^ 6 * 1.2e-38 := mul_le_mul h1 hR.tiny R.tiny_pos.le (by norm_num)
    _ ≤ _ := by norm_num

theorem Nr.add (hR : Wide R) (ha : Nr p A a y) (hb : Nr q B b z) (hp : p ≤ 100000) (hq : q ≤ 100000) (hA : A ≤ 1e30) (hB : B ≤ 1e30) :
    Nr (p + q + 1) (A + B) (a + b) (y + z) := by
  obtain ⟨v, h1, h2, h3⟩ := ha
  obtain ⟨w, k1, k2, k3⟩ := hb
  have hp' := tiny_mul hR (p := p) (by omega)
  have hq' := tiny_mul hR (p := q) (by omega)
  have e : |v + w - (y + z)| ≤ p * R.tiny + q * R.tiny := by
    rw [show v + w - (y + z) = v - y + (w - z) by ring]; exact (abs_add_le _ _).trans (add_le_add h2 k2)
  have hyz : |y + z| ≤ A + B := (abs_add_le _ _).trans (add_le_add h3 k3)
  have e' : |v + w| ≤ 3e30 := by
    rw [show v + w = (v + w - (y + z)) + (y + z) by ring]
    refine (abs_add_le _ _).trans ?_
    norm_num at hA hB hp' hq' ⊢; linarith
  refine ⟨_, h1.addF k1 (e'.trans (le_trans (by norm_num) hR.max)), ?_, hyz⟩
  calc |fl R (v + w) - (y + z)| ≤ |fl R (v + w) - (v + w)| + |v + w - (y + z)| := abs_sub_le _ _ _
    _ ≤ R.tiny + (p * R.tiny + q * R.tiny) := add_le_add (fl_near _) e
    _ = _ := by push_cast; ring

theorem Nr.neg (ha : Nr p A a y) : Nr p A (-a) (-y) := by
  obtain ⟨v, h1, h2, h3⟩ := ha
  exact ⟨-v, h1.neg, by rwa [show -v - -y = -(v - y) by ring, abs_neg], by rwa [abs_neg]⟩

theorem sub_addneg (a b : Ranged R) : a - b = a + -b := by
  show (⟨R.fit (a.x - b.x)⟩ : Ranged R) = ⟨R.fit (a.x + -b.x)⟩
  rfl

theorem Nr.sub (hR : Wide R) (ha : Nr p A a y) (hb : Nr q B b z) (hp : p ≤ 100000) (hq : q ≤ 100000) (hA : A ≤ 1e30) (hB : B ≤ 1e30) :
    Nr (p + q + 1) (A + B) (a - b) (y - z) := by
  rw [sub_addneg, sub_eq_add_neg y z]; exact ha.add hR hb.neg hp hq hA hB

theorem Nr.half (hR : Wide R) (ha : Nr p A a y) (hp : p ≤ 100000) (hA : A ≤ 1e30) : Nr (p + 1) A (Flt.lit 0.5 * a) (0.5 * y) := by
  obtain ⟨v, h1, h2, h3⟩ := ha
  have hv := h1.abs_le
  have hl : Is (Flt.lit 0.5 : Ranged R) 0.5 := hR.lit (by norm_num) (by norm_num)
  refine ⟨_, hl.mulF h1 (by rw [abs_mul, abs_of_pos (by norm_num : (0:ℝ) < 0.5)]; linarith [abs_nonneg v]), ?_, ?_⟩
  · have e : |0.5 * v - 0.5 * y| ≤ p * R.tiny := by
      rw [← mul_sub, abs_mul, abs_of_pos (by norm_num : (0:ℝ) < 0.5)]; linarith [abs_nonneg (v - y)]
    have := abs_sub_le (fl R (0.5 * v)) (0.5 * v) (0.5 * y)
    have h := fl_near (R := R) (0.5 * v)
    push_cast; linarith
  · rw [abs_mul, abs_of_pos (by norm_num : (0:ℝ) < 0.5)]; linarith [abs_nonneg y]

theorem Nr.div2 (hR : Wide R) (ha : Nr p A a y) (hp : p ≤ 100000) (hA : A ≤ 1e30) : Nr (p + 1) A (a / Flt.lit 2) (y / 2) := by
  obtain ⟨v, h1, h2, h3⟩ := ha
  have hv := h1.abs_le
  have hl : Is (Flt.lit 2 : Ranged R) 2 := hR.lit (by norm_num) (by norm_num)
  refine ⟨_, h1.divF hl (by norm_num) (by rw [abs_div, abs_of_pos (by norm_num : (0:ℝ) < 2)]; linarith [abs_nonneg v]), ?_, ?_⟩
  · have e : |v / 2 - y / 2| ≤ p * R.tiny := by
      rw [← sub_div, abs_div, abs_of_pos (by norm_num : (0:ℝ) < 2)]; linarith [abs_nonneg (v - y)]
    have := abs_sub_le (fl R (v / 2)) (v / 2) (y / 2)
    have h := fl_near (R := R) (v / 2)
    push_cast; linarith
  · rw [abs_div, abs_of_pos (by norm_num : (0:ℝ) < 2)]; linarith [abs_nonneg y]

theorem nr_lit (hR : Wide R) (h : |y| ≤ B) (hB : B ≤ 1e30) : Nr 1 B (Flt.lit y : Ranged R) y :=
  ⟨_, is_litF (h.trans (hB.trans (le_trans (by norm_num) hR.max))), by rw [Nat.cast_one, one_mul]; exact fl_near y, h⟩

theorem nr_zero : Nr 17 B (Flt.lit 0 : Ranged R) 0 ↔ 0 ≤ B := by
  constructor
  · rintro ⟨-, -, -, h⟩; rwa [abs_zero] at h
  · intro h
    refine ⟨0, is_lit (Or.inl rfl), ?_, by rwa [abs_zero]⟩
    rw [sub_self, abs_zero]; have := R.tiny_pos; positivity

section
variable {x : Fin (n + 3) → ℝ}

theorem nr_dt (hR : Wide R) (hx : ∀ i, |x i| ≤ 1000) (i : Fin (n + 3)) :
    Nr 17 10000 (Gen.jax_get_dt_array (fun j => (Flt.lit (x j) : Ranged R)) i) (Utils.jax_get_dt_array x i) := by
  have hl : ∀ i, Nr 1 1000 (Flt.lit (x i) : Ranged R) (x i) := fun i => nr_lit hR (hx i) (by norm_num)
  have hm : ∀ i : Fin (n + 2), Nr 4 2000 (Flt.lit 0.5 * (Flt.lit (x i.castSucc) + Flt.lit (x i.succ)) : Ranged R) (0.5 * (x i.castSucc + x i.succ)) := fun i =>
    ((((hl _).add hR (hl _) (by norm_num) (by norm_num) (by norm_num) (by norm_num)).half hR (by norm_num) (by norm_num))).mono (by norm_num) (by norm_num)
  have hd : ∀ i : Fin (n + 1), Nr 9 4000 (Flt.lit 0.5 * (Flt.lit (x i.succ.castSucc) + Flt.lit (x i.succ.succ)) - Flt.lit 0.5 * (Flt.lit (x i.castSucc.castSucc) + Flt.lit (x i.castSucc.succ)) : Ranged R)
      (0.5 * (x i.succ.castSucc + x i.succ.succ) - 0.5 * (x i.castSucc.castSucc + x i.castSucc.succ)) := fun i =>
    ((hm _).sub hR (hm _) (by norm_num) (by norm_num) (by norm_num) (by norm_num)).mono (by norm_num) (by norm_num)
  unfold Gen.jax_get_dt_array Utils.jax_get_dt_array
  refine rng_setAt (P := fun a y => Nr 17 10000 a y) (rng_setAt (P := fun a y => Nr 17 10000 a y) (rng_setInterior (P := fun a y => Nr 17 10000 a y) (fun _ => ?_) fun i => ?_) _ ?_) _ ?_ i
  · exact nr_zero.2 (by norm_num)
  · exact (hd i).mono (by norm_num) (by norm_num)
  · exact ((hm 0).sub hR ((hl 0).sub hR (((hl 1).sub hR (hl 0) (by norm_num) (by norm_num) (by norm_num) (by norm_num)).div2 hR (by norm_num) (by norm_num))
      (by norm_num) (by norm_num) (by norm_num) (by norm_num)) (by norm_num) (by norm_num) (by norm_num) (by norm_num)).mono (by norm_num) (by norm_num)
  · exact (((hl _).add hR ((hd _).div2 hR (by norm_num) (by norm_num)) (by norm_num) (by norm_num) (by norm_num) (by norm_num)).sub hR (hm _)
      (by norm_num) (by norm_num) (by norm_num) (by norm_num)).mono (by norm_num) (by norm_num)

/-- the edges of the age bins -/
theorem nr_age_edges (hR : Wide R) (hx : ∀ i, |x i| ≤ 1000) (i : Fin (n + 4)) :
    Nr 20 20000 (Gen.get_lg_age_bin_edges (fun j => (Flt.lit (x j) : Ranged R)) i) (StellarAgeWeights.get_lg_age_bin_edges x i) := by
  have hl : ∀ i, Nr 1 1000 (Flt.lit (x i) : Ranged R) (x i) := fun i => nr_lit hR (hx i) (by norm_num)
  have hd := fun i => (nr_dt hR hx i).div2 hR (by norm_num) (by norm_num)
  unfold Gen.get_lg_age_bin_edges StellarAgeWeights.get_lg_age_bin_edges
  refine rng_setAt (P := fun a y => Nr 20 20000 a y) (rng_setAt (P := fun a y => Nr 20 20000 a y) (rng_setInit (P := fun a y => Nr 20 20000 a y) (fun _ => ?_) fun i => ?_) _ ?_) _ ?_ i
  · exact (nr_zero.2 (show (0:ℝ) ≤ 20000 by norm_num)).mono (by norm_num) le_rfl
  · exact ((hl i).sub hR (hd i) (by norm_num) (by norm_num) (by norm_num) (by norm_num)).mono (by norm_num) (by norm_num)
  · exact ((hl 0).sub hR (((hl 1).sub hR (hl 0) (by norm_num) (by norm_num) (by norm_num) (by norm_num)).div2 hR (by norm_num) (by norm_num))
      (by norm_num) (by norm_num) (by norm_num) (by norm_num)).mono (by norm_num) (by norm_num)
  · exact ((hl _).add hR (hd _) (by norm_num) (by norm_num) (by norm_num) (by norm_num)).mono (by norm_num) (by norm_num)

/-- the edges of the metallicity bins -/
theorem nr_met_edges (hR : Wide R) (hx : ∀ i, |x i| ≤ 1000) {l h : ℝ} (hl' : |l| ≤ 1000) (hh' : |h| ≤ 1000) (i : Fin (n + 4)) :
    Nr 20 20000 (Gen.get_bin_edges (fun j => (Flt.lit (x j) : Ranged R)) (Flt.lit l) (Flt.lit h) i) (Utils.get_bin_edges x l h i) := by
  have hl : ∀ i, Nr 1 1000 (Flt.lit (x i) : Ranged R) (x i) := fun i => nr_lit hR (hx i) (by norm_num)
  have hd := fun i => (nr_dt hR hx i).div2 hR (by norm_num) (by norm_num)
  unfold Gen.get_bin_edges Utils.get_bin_edges
  refine rng_setAt (P := fun a y => Nr 20 20000 a y) (rng_setAt (P := fun a y => Nr 20 20000 a y) (rng_setInit (P := fun a y => Nr 20 20000 a y) (fun _ => ?_) fun i => ?_) _ ?_) _ ?_ i
  · exact (nr_zero.2 (show (0:ℝ) ≤ 20000 by norm_num)).mono (by norm_num) le_rfl
  · exact ((hl i).sub hR (hd i) (by norm_num) (by norm_num) (by norm_num) (by norm_num)).mono (by norm_num) (by norm_num)
  · exact (nr_lit hR hl' (by norm_num)).mono (by norm_num) (by norm_num)
  · exact (nr_lit hR hh' (by norm_num)).mono (by norm_num) (by norm_num)

/-- edges that increase by more than a millionth still increase -/
theorem edges_anti (hR : Wide R) {e : Fin (n + 4) → Ranged R} {E : Fin (n + 4) → ℝ} (h : ∀ i, Nr 20 20000 (e i) (E i)) :
    ∃ v : Fin (n + 4) → ℝ, (∀ i, Is (e i) (v i)) ∧ (∀ i, |v i - E i| ≤ 1e-30) ∧
      ((∀ i : Fin (n + 3), E i.castSucc + 1e-6 ≤ E i.succ) → ∀ i : Fin (n + 3), v i.castSucc ≤ v i.succ) := by
  choose v h1 h2 _ using h
  have h2' : ∀ i, |v i - E i| ≤ 1e-30 := fun i => (h2 i).trans (tiny_mul hR (by norm_num))
  refine ⟨v, h1, h2', fun hE i => ?_⟩
  have a := abs_le.1 (h2' i.castSucc)
  have b := abs_le.1 (h2' i.succ)
  have c := hE i
  norm_num at a b c
  linarith [a.2, b.1]

end

end Dsps.Lemmas
