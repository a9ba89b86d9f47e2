import Verif.Props.EquivalentWidth

/-! C133: what equivalent widths depend on: locality, best fit, choice of units and origin of the wavelengths, redshift, and sampling of the line window. -/
namespace Dsps.Props
open Jnp Dsps.Utils Dsps.EquivalentWidth Dsps.Lemmas Spec Matrix
open scoped BigOperators

variable {n : ℕ}

open Classical in
/-- Sum of the squared residuals of the quadratic `q 2 + q 1 · λ + q 0 · λ²` over the samples in the continuum windows. -/
noncomputable def windowResidual (wave flux : Fin n → ℝ) (a b c d : ℝ) (q : Fin 3 → ℝ) : ℝ :=
  ∑ i with InWindows a b c d (wave i), (flux i - (q 2 + q 1 * wave i + q 0 * wave i ^ 2)) ^ 2

theorem windowResidual_eq (wave flux : Fin n → ℝ) (a b c d : ℝ) (q : Fin 3 → ℝ) :
    windowResidual wave flux a b c d q =
      ∑ i, ((q 0 * wave i ^ 2 + q 1 * wave i + q 2) * get_quadfit_weights (wave i) a b c d - flux i * get_quadfit_weights (wave i) a b c d) ^ 2 := by
  classical
  rw [windowResidual, Finset.sum_filter]
  refine Finset.sum_congr rfl fun i _ => ?_
  split_ifs with h
  · rw [quadfit_one h]; ring
  · rw [quadfit_zero h]; ring

/-- the weighted fit minimises the weighted residual -/
theorem fit_minimises {lstsq : Lstsq n} (hl : IsLstsq lstsq) {x y w : Fin n → ℝ} (hne : ∃ i, w i ≠ 0 ∧ x i ≠ 0) (q : Fin 3 → ℝ) :
    let r := weighted_quadratic_fit lstsq x y w
    ∑ i, ((r 0 * x i ^ 2 + r 1 * x i + r 2) * w i - y i * w i) ^ 2 ≤ ∑ i, ((q 0 * x i ^ 2 + q 1 * x i + q 2) * w i - y i * w i) ^ 2 := by
  have hpos : ∀ c : Fin 3, 0 < Real.sqrt (∑ l, (vander3 x l c * w l) * (vander3 x l c * w l)) := by
    intro c
    obtain ⟨l, h1, h2⟩ := hne
    apply Real.sqrt_pos.2
    exact Finset.sum_pos' (fun l _ => mul_self_nonneg _) ⟨l, Finset.mem_univ _, mul_self_pos.2 (mul_ne_zero (pow_ne_zero _ h2) h1)⟩
  unfold weighted_quadratic_fit
  simp only
  generalize hsc : (fun c : Fin 3 => Real.sqrt (∑ l, (vander3 x l c * w l) * (vander3 x l c * w l))) = sc
  have hsc' : ∀ c, Real.sqrt (∑ l, (vander3 x l c * w l) * (vander3 x l c * w l)) = sc c := fun c => congrFun hsc c
  have hp : ∀ c, sc c ≠ 0 := fun c => by rw [← hsc' c]; exact (hpos c).ne'
  simp only [hsc']
  generalize hA : (fun l c => vander3 x l c * w l / sc c : Matrix (Fin n) (Fin 3) ℝ) = A
  have hLS := (hl A (fun l => y l * w l)).1
  generalize hc : lstsq A (fun l => y l * w l) = c at hLS
  have hmul : ∀ (v : Fin 3 → ℝ) l, (A *ᵥ v) l = (v 0 / sc 0 * x l ^ 2 + v 1 / sc 1 * x l + v 2 / sc 2) * w l := by
    intro v l
    rw [← hA]
    simp only [mulVec, dotProduct, Fin.sum_univ_three, vander3]
    simp
    ring
  have h := hLS fun k => q k * sc k
  simp only [dotProduct, Pi.sub_apply, hmul, mul_div_cancel_right₀ _ (hp _), ← pow_two] at h
  exact h

/-- C133: the fitted continuum is the best one: no quadratic has a smaller sum of squared residuals over the samples in the continuum windows. -/
theorem C133_best_fit {lstsq : Lstsq (n + 1)} (hl : IsLstsq lstsq) {wave flux : Fin (n + 1) → ℝ} (llo lmid lhi : ℝ) {a b c d : ℝ}
    (hne : ∃ i, InWindows a b c d (wave i) ∧ wave i ≠ 0) (q : Fin 3 → ℝ) :
    windowResidual wave flux a b c d (continuum_line_decomp_kern lstsq wave flux llo lmid lhi a b c d).2.2.2 ≤ windowResidual wave flux a b c d q := by
  rw [windowResidual_eq, windowResidual_eq]
  refine fit_minimises hl ?_ q
  obtain ⟨i, h1, h2⟩ := hne
  exact ⟨i, by rw [quadfit_one h1]; exact one_ne_zero, h2⟩

/-- three distinct wavelengths in the windows -/
def ThreeInWindows (wave : Fin n → ℝ) (a b c d : ℝ) : Prop :=
  ∃ i j k, InWindows a b c d (wave i) ∧ InWindows a b c d (wave j) ∧ InWindows a b c d (wave k) ∧ wave i ≠ wave j ∧ wave j ≠ wave k ∧ wave i ≠ wave k

theorem ThreeInWindows.nonzero {wave : Fin n → ℝ} {a b c d : ℝ} (h : ThreeInWindows wave a b c d) : ∃ i, InWindows a b c d (wave i) ∧ wave i ≠ 0 := by
  obtain ⟨i, j, k, hi, hj, -, hij, -⟩ := h
  by_cases h0 : wave i = 0
  · exact ⟨j, hj, fun h' => hij (h0.trans h'.symm)⟩
  · exact ⟨i, hi, h0⟩

theorem residual_unique {wave flux : Fin n → ℝ} {a b c d : ℝ} (h3 : ThreeInWindows wave a b c d) {p q : Fin 3 → ℝ}
    (hp : ∀ r, windowResidual wave flux a b c d p ≤ windowResidual wave flux a b c d r)
    (hq : windowResidual wave flux a b c d q ≤ windowResidual wave flux a b c d p) : q = p := by
  classical
  have hm := hp fun k => (p k + q k) / 2
  simp only [windowResidual] at hm hq
  have hpar : ∀ i, (flux i - ((p 2 + q 2) / 2 + (p 1 + q 1) / 2 * wave i + (p 0 + q 0) / 2 * wave i ^ 2)) ^ 2
      = (flux i - (p 2 + p 1 * wave i + p 0 * wave i ^ 2)) ^ 2 / 2 + (flux i - (q 2 + q 1 * wave i + q 0 * wave i ^ 2)) ^ 2 / 2
        - (((q 0 - p 0) * wave i ^ 2 + (q 1 - p 1) * wave i + (q 2 - p 2)) / 2) ^ 2 := by
    intro i; ring
  simp only [hpar, Finset.sum_sub_distrib, Finset.sum_add_distrib, ← Finset.sum_div] at hm
  have h0 : ∑ i with InWindows a b c d (wave i), (((q 0 - p 0) * wave i ^ 2 + (q 1 - p 1) * wave i + (q 2 - p 2)) / 2) ^ 2 ≤ 0 := by linarith
  have hz := (Finset.sum_eq_zero_iff_of_nonneg fun i _ => sq_nonneg _).1 (le_antisymm h0 (Finset.sum_nonneg fun i _ => sq_nonneg _))
  have hpt : ∀ i, InWindows a b c d (wave i) → (q 0 - p 0) * wave i ^ 2 + (q 1 - p 1) * wave i + (q 2 - p 2) = 0 := by
    intro i hi
    have := pow_eq_zero_iff (two_ne_zero) |>.1 (hz i (Finset.mem_filter.2 ⟨Finset.mem_univ _, hi⟩))
    linarith
  obtain ⟨i, j, k, hi, hj, hk, hij, hjk, hik⟩ := h3
  obtain ⟨e0, e1, e2⟩ := quad_unique hij hjk hik (hpt i hi) (hpt j hj) (hpt k hk)
  funext l
  fin_cases l
  · show q 0 = p 0; linarith
  · show q 1 = p 1; linarith
  · show q 2 = p 2; linarith

/-- C133: with three distinct wavelengths in the windows it is the only best one. -/
theorem C133_unique_fit {lstsq : Lstsq (n + 1)} (hl : IsLstsq lstsq) {wave flux : Fin (n + 1) → ℝ} (llo lmid lhi : ℝ) {a b c d : ℝ}
    (h3 : ThreeInWindows wave a b c d) {q : Fin 3 → ℝ} (hq : ∀ r, windowResidual wave flux a b c d q ≤ windowResidual wave flux a b c d r) :
    (continuum_line_decomp_kern lstsq wave flux llo lmid lhi a b c d).2.2.2 = q :=
  residual_unique h3 hq (C133_best_fit hl llo lmid lhi h3.nonzero q)

/-- C133: locality.  Two spectra that agree at the samples inside the continuum windows and the line window have the same equivalent width, line flux, continuum
strength and coefficients, whatever they are elsewhere (and whatever the solver). -/
theorem C133_locality (lstsq : Lstsq (n + 1)) {wave f g : Fin (n + 1) → ℝ} (llo lmid lhi : ℝ) {a b c d : ℝ}
    (h : ∀ i, InWindows a b c d (wave i) ∨ (llo ≤ wave i ∧ wave i ≤ lhi) → f i = g i) :
    continuum_line_decomp_kern lstsq wave f llo lmid lhi a b c d = continuum_line_decomp_kern lstsq wave g llo lmid lhi a b c d ∧
    ew_kernel lstsq wave f llo lmid lhi a b c d = ew_kernel lstsq wave g llo lmid lhi a b c d := by
  have h1 : (fun i => f i * get_quadfit_weights (wave i) a b c d) = fun i => g i * get_quadfit_weights (wave i) a b c d := by
    funext i
    by_cases hi : InWindows a b c d (wave i)
    · rw [h i (.inl hi)]
    · rw [quadfit_zero hi, mul_zero, mul_zero]
  have h2 : (fun i => get_integration_weights (wave i) llo lhi * f i) = fun i => get_integration_weights (wave i) llo lhi * g i := by
    funext i
    by_cases hi : llo ≤ wave i ∧ wave i ≤ lhi
    · rw [h i (.inr hi)]
    · have : get_integration_weights (wave i) llo lhi = 0 := if_neg hi
      rw [this, zero_mul, zero_mul]
  have key : continuum_line_decomp_kern lstsq wave f llo lmid lhi a b c d = continuum_line_decomp_kern lstsq wave g llo lmid lhi a b c d := by
    unfold continuum_line_decomp_kern weighted_quadratic_fit
    simp only [h1, h2]
  refine ⟨key, ?_⟩
  have hk : ∀ y, ew_kernel lstsq wave y llo lmid lhi a b c d = ((continuum_line_decomp_kern lstsq wave y llo lmid lhi a b c d).1,
    (continuum_line_decomp_kern lstsq wave y llo lmid lhi a b c d).2.1) := fun _ => rfl
  rw [hk, hk, key]

theorem quadfit_scale {s : ℝ} (hs : 0 < s) (x a b c d : ℝ) :
    get_quadfit_weights (s * x) (s * a) (s * b) (s * c) (s * d) = get_quadfit_weights x a b c d := by
  unfold get_quadfit_weights
  simp only [ge_iff_le, mul_le_mul_iff_right₀ hs]

theorem intw_scale {s : ℝ} (hs : 0 < s) (x a b : ℝ) : get_integration_weights (s * x) (s * a) (s * b) = get_integration_weights x a b := by
  unfold get_integration_weights
  simp only [ge_iff_le, mul_le_mul_iff_right₀ hs]

theorem trapz_scale_left (x y : Fin (n + 1) → ℝ) (s : ℝ) : trapz (fun i => s * x i) y = s * trapz x y := by
  rw [trapz_eq, trapz_eq, Finset.mul_sum]
  exact Finset.sum_congr rfl fun i _ => by ring

theorem fit_scale (lstsq : Lstsq n) {s : ℝ} (hs : 0 < s) (x y w : Fin n → ℝ) (k : Fin 3) :
    weighted_quadratic_fit lstsq (fun i => s * x i) y w k = weighted_quadratic_fit lstsq x y w k / s ^ (2 - (k : ℕ)) := by
  have hsp : ∀ k : Fin 3, (0 : ℝ) < s ^ (2 - (k : ℕ)) := fun k => pow_pos hs _
  have hv : ∀ i k, vander3 (fun i => s * x i) i k = s ^ (2 - (k : ℕ)) * vander3 x i k := fun i k => mul_pow _ _ _
  have hsc : ∀ k : Fin 3, Real.sqrt (∑ l, vander3 (fun i => s * x i) l k * w l * (vander3 (fun i => s * x i) l k * w l))
      = s ^ (2 - (k : ℕ)) * Real.sqrt (∑ l, vander3 x l k * w l * (vander3 x l k * w l)) := by
    intro k
    rw [show s ^ (2 - (k : ℕ)) * Real.sqrt (∑ l, vander3 x l k * w l * (vander3 x l k * w l))
        = Real.sqrt ((s ^ (2 - (k : ℕ))) ^ 2 * ∑ l, vander3 x l k * w l * (vander3 x l k * w l)) by
      rw [Real.sqrt_mul (sq_nonneg _), Real.sqrt_sq (hsp k).le], Finset.mul_sum]
    congr 1
    refine Finset.sum_congr rfl fun l _ => ?_
    rw [hv]; ring
  unfold weighted_quadratic_fit
  simp only
  have hA : (fun i k => vander3 (fun i => s * x i) i k * w i /
        Real.sqrt (∑ l, vander3 (fun i => s * x i) l k * w l * (vander3 (fun i => s * x i) l k * w l)) : Matrix (Fin n) (Fin 3) ℝ)
      = fun i k => vander3 x i k * w i / Real.sqrt (∑ l, vander3 x l k * w l * (vander3 x l k * w l)) := by
    funext i k
    rw [hsc, hv, mul_assoc, mul_div_mul_left _ _ (hsp k).ne']
  rw [hA, hsc, div_div, mul_comm (s ^ _)]

/-- C133: units and redshift.  Stretching the wavelengths and all windows by `s > 0` (another unit, or `s = 1 + z` for a redshifted spectrum) leaves the continuum
strength unchanged and multiplies line flux and equivalent width by `s`: the observed equivalent width is `1 + z` times the one at rest.  No assumption on the
solver is needed: the scaled least-squares problem is the same. -/
theorem C133_stretch (lstsq : Lstsq (n + 1)) (wave flux : Fin (n + 1) → ℝ) (llo lmid lhi a b c d : ℝ) {s : ℝ} (hs : 0 < s) :
    let r := continuum_line_decomp_kern lstsq wave flux llo lmid lhi a b c d
    let r' := continuum_line_decomp_kern lstsq (fun i => s * wave i) flux (s * llo) (s * lmid) (s * lhi) (s * a) (s * b) (s * c) (s * d)
    r'.1 = s * r.1 ∧ r'.2.1 = s * r.2.1 ∧ r'.2.2.1 = r.2.2.1 ∧ r'.2.2.2 = ![r.2.2.2 0 / s ^ 2, r.2.2.2 1 / s, r.2.2.2 2] := by
  have hs0 := hs.ne'
  have hf := fit_scale lstsq hs wave flux (fun i => get_quadfit_weights (wave i) a b c d)
  unfold continuum_line_decomp_kern
  simp only [quadfit_scale hs, intw_scale hs, hf, trapz_scale_left]
  set F := weighted_quadratic_fit lstsq wave flux (fun i => get_quadfit_weights (wave i) a b c d)
  have e0 : F 0 / s ^ (2 - ((0 : Fin 3) : ℕ)) = F 0 / s ^ 2 := rfl
  have e1 : F 1 / s ^ (2 - ((1 : Fin 3) : ℕ)) = F 1 / s := by simp
  have e2 : F 2 / s ^ (2 - ((2 : Fin 3) : ℕ)) = F 2 := by simp
  simp only [e0, e1, e2]
  have hcont : F 2 + F 1 / s * (s * lmid) + F 0 / s ^ 2 * (s * lmid) ^ 2 = F 2 + F 1 * lmid + F 0 * lmid ^ 2 := by field_simp
  have hint : ∀ i, get_integration_weights (wave i) llo lhi * (F 2 + F 1 / s * (s * wave i) + F 0 / s ^ 2 * (s * wave i) * (s * wave i))
      = get_integration_weights (wave i) llo lhi * (F 2 + F 1 * wave i + F 0 * wave i * wave i) := by
    intro i; congr 1; field_simp
  simp only [hcont, hint]
  refine ⟨by ring, by ring, trivial, ?_⟩
  funext k
  rw [hf]
  fin_cases k
  · exact e0
  · exact e1
  · exact e2

theorem trapz_translate (x y : Fin (n + 1) → ℝ) (t : ℝ) : trapz (fun i => x i + t) y = trapz x y := by
  rw [trapz_eq, trapz_eq]
  exact Finset.sum_congr rfl fun i _ => by ring

/-- C133: moving the origin of the wavelengths (with all windows) changes nothing but the representation of the continuum. -/
theorem C133_translate {lstsq : Lstsq (n + 1)} (hl : IsLstsq lstsq) {wave : Fin (n + 1) → ℝ} (flux : Fin (n + 1) → ℝ) (llo lmid lhi : ℝ) {a b c d : ℝ}
    (h3 : ThreeInWindows wave a b c d) (t : ℝ) :
    let r := continuum_line_decomp_kern lstsq wave flux llo lmid lhi a b c d
    let r' := continuum_line_decomp_kern lstsq (fun i => wave i + t) flux (llo + t) (lmid + t) (lhi + t) (a + t) (b + t) (c + t) (d + t)
    r'.1 = r.1 ∧ r'.2.1 = r.2.1 ∧ r'.2.2.1 = r.2.2.1 ∧
    ∀ x, r'.2.2.2 2 + r'.2.2.2 1 * (x + t) + r'.2.2.2 0 * (x + t) ^ 2 = r.2.2.2 2 + r.2.2.2 1 * x + r.2.2.2 0 * x ^ 2 := by
  have hw : ∀ x, InWindows (a + t) (b + t) (c + t) (d + t) (x + t) ↔ InWindows a b c d x := by
    intro x; simp only [InWindows, add_le_add_iff_right]
  have h3' : ThreeInWindows (fun i => wave i + t) (a + t) (b + t) (c + t) (d + t) := by
    obtain ⟨i, j, k, hi, hj, hk, hij, hjk, hik⟩ := h3
    exact ⟨i, j, k, (hw _).2 hi, (hw _).2 hj, (hw _).2 hk, fun h => hij (add_right_cancel h), fun h => hjk (add_right_cancel h),
      fun h => hik (add_right_cancel h)⟩
  have hres : ∀ q : Fin 3 → ℝ, windowResidual (fun i => wave i + t) flux (a + t) (b + t) (c + t) (d + t) q
      = windowResidual wave flux a b c d ![q 0, q 1 + 2 * q 0 * t, q 2 + q 1 * t + q 0 * t ^ 2] := by
    intro q
    classical
    simp only [windowResidual, hw]
    refine Finset.sum_congr rfl fun i _ => ?_
    simp only [Matrix.cons_val_zero, Matrix.cons_val_one, Matrix.cons_val]
    ring
  have hbest := fun q => C133_best_fit hl (flux := flux) llo lmid lhi h3.nonzero q
  set P := (continuum_line_decomp_kern lstsq wave flux llo lmid lhi a b c d).2.2.2 with hP
  have hP' := C133_unique_fit hl (flux := flux) (llo + t) (lmid + t) (lhi + t) h3' (q := ![P 0, P 1 - 2 * P 0 * t, P 2 - P 1 * t + P 0 * t ^ 2]) (by
    intro r
    rw [hres, hres]
    refine le_trans (le_of_eq ?_) (hbest _)
    congr 1
    funext k
    fin_cases k <;> simp <;> ring)
  have fP : weighted_quadratic_fit lstsq wave flux (fun i => get_quadfit_weights (wave i) a b c d) = P := rfl
  have fP' : weighted_quadratic_fit lstsq (fun i => wave i + t) flux (fun i => get_quadfit_weights (wave i + t) (a + t) (b + t) (c + t) (d + t))
    = ![P 0, P 1 - 2 * P 0 * t, P 2 - P 1 * t + P 0 * t ^ 2] := hP'
  have hiw : ∀ x, get_integration_weights (x + t) (llo + t) (lhi + t) = get_integration_weights x llo lhi := by
    intro x; unfold get_integration_weights; simp only [ge_iff_le, add_le_add_iff_right]
  have hval : ∀ x, (P 2 - P 1 * t + P 0 * t ^ 2) + (P 1 - 2 * P 0 * t) * (x + t) + P 0 * (x + t) ^ 2 = P 2 + P 1 * x + P 0 * x ^ 2 := by
    intro x; ring
  have hval2 : ∀ x, (P 2 - P 1 * t + P 0 * t ^ 2) + (P 1 - 2 * P 0 * t) * (x + t) + P 0 * (x + t) * (x + t) = P 2 + P 1 * x + P 0 * x * x := by
    intro x; ring
  intro r r'
  have hr' : r' = continuum_line_decomp_kern lstsq (fun i => wave i + t) flux (llo + t) (lmid + t) (lhi + t) (a + t) (b + t) (c + t) (d + t) := rfl
  have hr : r = continuum_line_decomp_kern lstsq wave flux llo lmid lhi a b c d := rfl
  clear_value r r'
  unfold continuum_line_decomp_kern at hr hr'
  simp only [fP', hiw, Matrix.cons_val_zero, Matrix.cons_val_one, Matrix.cons_val, hval, hval2, trapz_translate] at hr'
  simp only [fP] at hr
  rw [hr, hr']
  refine ⟨rfl, rfl, rfl, fun x => ?_⟩
  simp only [Matrix.cons_val_zero, Matrix.cons_val_one, Matrix.cons_val]
  ring

/-! ### sampling of the line window -/

/-- trapezoid of a step from 0 to 1 at `lo` against its integral -/
theorem trapz_step {x : Fin (n + 1) → ℝ} (hx : Monotone x) {Δ : ℝ} (hΔ : ∀ i : Fin n, x i.succ - x i.castSucc ≤ Δ) (hΔ0 : 0 ≤ Δ) (G : ℝ → ℝ) {lo : ℝ}
    (hG : ∀ y, (y < lo → G y = 0) ∧ (lo < y → G y = 1) ∧ 0 ≤ G y ∧ G y ≤ 1) (h0 : x 0 ≤ lo) (h1 : lo ≤ x (Fin.last n)) :
    |trapz x (fun i => G (x i)) - (x (Fin.last n) - lo)| ≤ Δ / 2 := by
  have ht : x (Fin.last n) - lo = ∑ i : Fin n, (max (x i.succ) lo - max (x i.castSucc) lo) := by
    rw [sum_telescope (fun i => max (x i) lo), max_eq_left h1, max_eq_right h0]
  have hcell : ∀ i : Fin n, |(x i.succ - x i.castSucc) * ((G (x i.castSucc) + G (x i.succ)) / 2) - (max (x i.succ) lo - max (x i.castSucc) lo)|
      ≤ Δ / 2 * (G (x i.succ) - G (x i.castSucc)) := by
    intro i
    have hm : x i.castSucc ≤ x i.succ := hx (Fin.castSucc_lt_succ).le
    have hd := hΔ i
    generalize x i.castSucc = u at *
    generalize x i.succ = v at *
    obtain ⟨a1, a2, a3, a4⟩ := hG u
    obtain ⟨b1, b2, b3, b4⟩ := hG v
    rcases lt_trichotomy v lo with hv | hv | hv
    · rw [a1 (lt_of_le_of_lt hm hv), b1 hv, max_eq_right hv.le, max_eq_right (hm.trans hv.le)]; simp
    · subst hv
      rcases hm.eq_or_lt with h | h
      · subst h; simp
      · rw [a1 h, max_eq_left le_rfl, max_eq_right h.le, abs_le]
        constructor <;> nlinarith
    · rw [b2 hv, max_eq_left hv.le]
      rcases lt_trichotomy u lo with hu | hu | hu
      · rw [a1 hu, max_eq_right hu.le, abs_le]
        constructor <;> nlinarith
      · subst hu
        rw [max_eq_left le_rfl, abs_le]
        constructor <;> nlinarith
      · rw [a2 hu, max_eq_left hu.le]; simp
  rw [trapz_eq, ht, ← Finset.sum_sub_distrib]
  refine (Finset.abs_sum_le_sum_abs _ _).trans ?_
  refine (Finset.sum_le_sum fun i _ => (le_of_eq ?_).trans (hcell i)).trans ?_
  · congr 1; ring
  · rw [← Finset.mul_sum, sum_telescope (fun i => G (x i))]
    have e1 := (hG (x (Fin.last n))).2.2
    have e0 := (hG (x 0)).2.2
    nlinarith

/-- C133: sampling of the line window.  There is no interpolation at the edges of the line window: for a line of constant height `e` above a quadratic continuum
(in the window), on a grid whose cells are at most `Δ` wide, the line flux is the area `e · (hi - lo)` up to `|e| · Δ` … -/
theorem C133_window_sampling {lstsq : Lstsq (n + 1)} (hl : IsLstsq lstsq) {wave flux : Fin (n + 1) → ℝ} {llo lmid lhi a b c d q0 q1 q2 e Δ : ℝ}
    (hx : Monotone wave) (hΔ : ∀ i : Fin n, wave i.succ - wave i.castSucc ≤ Δ) (hΔ0 : 0 ≤ Δ)
    (h0 : wave 0 ≤ llo) (hlh : llo ≤ lhi) (h1 : lhi ≤ wave (Fin.last n))
    (hq : ∀ i, InWindows a b c d (wave i) → flux i = q0 + q1 * wave i + q2 * wave i ^ 2)
    (he : ∀ i, llo ≤ wave i ∧ wave i ≤ lhi → flux i = q0 + q1 * wave i + q2 * wave i ^ 2 + e)
    (h3 : ThreeInWindows wave a b c d) :
    |(ew_kernel lstsq wave flux llo lmid lhi a b c d).2 - e * (lhi - llo)| ≤ |e| * Δ := by
  classical
  have hF := (C62_recovers_quadratic hl (flux := flux) llo lmid lhi hq h3).2.2.1
  have hk : (ew_kernel lstsq wave flux llo lmid lhi a b c d).2 = (continuum_line_decomp_kern lstsq wave flux llo lmid lhi a b c d).2.1 := rfl
  set G1 : ℝ → ℝ := fun y => if llo ≤ y then 1 else 0 with hG1
  set G2 : ℝ → ℝ := fun y => if lhi < y then 1 else 0 with hG2
  have hsplit : (fun i => if llo ≤ wave i ∧ wave i ≤ lhi then flux i - (q0 + q1 * wave i + q2 * wave i ^ 2) else 0)
      = fun i => e * G1 (wave i) + (-e) * G2 (wave i) := by
    funext i
    simp only [hG1, hG2]
    by_cases hw : llo ≤ wave i ∧ wave i ≤ lhi
    · rw [if_pos hw, he i hw, if_pos hw.1, if_neg (not_lt.2 hw.2)]; ring
    · rw [if_neg hw]
      by_cases ha : llo ≤ wave i
      · have hb : lhi < wave i := not_le.1 fun h => hw ⟨ha, h⟩
        rw [if_pos ha, if_pos hb]; ring
      · rw [if_neg ha, if_neg (not_lt.2 ((not_le.1 ha).le.trans hlh))]; ring
  rw [hk, hF]
  rw [show (fun i => open Classical in if llo ≤ wave i ∧ wave i ≤ lhi then flux i - (q0 + q1 * wave i + q2 * wave i ^ 2) else 0)
      = fun i => e * G1 (wave i) + (-e) * G2 (wave i) by rw [← hsplit], trapz_add', trapz_smul, trapz_smul]
  have t1 := trapz_step hx hΔ hΔ0 G1 (lo := llo) (fun y => by
    simp only [hG1]
    refine ⟨fun h => if_neg (not_le.2 h), fun h => if_pos h.le, ?_, ?_⟩ <;> split_ifs <;> norm_num) h0 (hlh.trans h1)
  have t2 := trapz_step hx hΔ hΔ0 G2 (lo := lhi) (fun y => by
    simp only [hG2]
    refine ⟨fun h => if_neg (not_lt.2 h.le), fun h => if_pos h, ?_, ?_⟩ <;> split_ifs <;> norm_num) (h0.trans hlh) h1
  generalize trapz wave (fun i => G1 (wave i)) = T1 at *
  generalize trapz wave (fun i => G2 (wave i)) = T2 at *
  rw [show e * T1 + -e * T2 - e * (lhi - llo) = e * ((T1 - (wave (Fin.last n) - llo)) - (T2 - (wave (Fin.last n) - lhi))) by ring, abs_mul]
  refine mul_le_mul_of_nonneg_left ?_ (abs_nonneg _)
  refine (abs_sub _ _).trans ?_
  linarith

/-- C133: … and the bound is reached: on the grid 1, …, 6 the window [3, 3] of width zero already gives a line of height `e` the flux `e`, one cell width, and
the window [2.1, 3.9] gives the same flux. -/
theorem C133_window_sampling_sharp {lstsq : Lstsq 6} (hl : IsLstsq lstsq) (e : ℝ) :
    (ew_kernel lstsq ewWave (fun i => 1 + if i = 2 then e else 0) 3 3 3 1 2 5 6).2 = e ∧
    (ew_kernel lstsq ewWave (fun i => 1 + if i = 2 then e else 0) 2.1 3 3.9 1 2 5 6).2 = e := by
  have hz : ∀ i, InWindows 1 2 5 6 (ewWave i) → (if i = 2 then e else 0 : ℝ) = 0 := by
    intro i h
    rw [if_neg]
    rintro rfl
    revert h; simp [InWindows, ewWave]; norm_num
  have hr : ∀ llo lhi : ℝ, 2 < llo → llo ≤ 3 → 3 ≤ lhi → lhi < 4 →
      (ew_kernel lstsq ewWave (fun i => 1 + if i = 2 then e else 0) llo 3 lhi 1 2 5 6).2 = e := by
    intro llo lhi g1 g2 g3 g4
    have h := C62_line_on_continuum hl (wave := ewWave) (line := fun i => if i = 2 then e else 0) llo 3 lhi (q0 := 1) (q1 := 0) (q2 := 0) hz ewWave_three
    simp only [zero_mul, add_zero] at h
    rw [h]
    simp only
    rw [trapz_eq]
    simp only [Fin.sum_univ_five, ewWave]
    have k2 : llo ≤ 3 ∧ 3 ≤ lhi := ⟨g2, g3⟩
    simp [Fin.succ, Fin.castSucc, Fin.castAdd, Fin.castLE, k2]
    ring
  exact ⟨hr 3 3 (by norm_num) le_rfl le_rfl (by norm_num), hr _ _ (by norm_num) (by norm_num) (by norm_num) (by norm_num)⟩

/-! ## The theorems applied -/

/-- C133 applied to the spectrum of C62 -/
example := C133_best_fit (n := 5) ewSolver_spec (wave := ewWave) (flux := fun i => ewWave i ^ 3) 3 3.5 4 (ThreeInWindows.nonzero ewWave_three) ![1, 2, 3]
example := C133_stretch (n := 5) ewSolver ewWave ewLine 3 3.5 4 1 2 5 6 (s := 1.5) (by norm_num)
example := C133_translate (n := 5) ewSolver_spec (fun i => ewWave i ^ 3) 3 3.5 4 ewWave_three 0.3
/-- C133: flux changed between the windows and the line only -/
example := C133_locality (n := 5) ewSolver (wave := ewWave) (f := ![1, 2, 3, 4, 5, 6]) (g := ![1, 2, 3, 100, 5, 6]) 2.5 3 3.5 (a := 1) (b := 2) (c := 5) (d := 6)
  (by
    intro i h
    fin_cases i <;> first | rfl | (exfalso; revert h; simp [InWindows, ewWave]; norm_num))

end Dsps.Props
