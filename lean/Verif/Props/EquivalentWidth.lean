import Verif.Model.EquivalentWidth
import Verif.Lemmas.Lstsq
import Verif.Lemmas.Photometry
import Verif.Cases

/-! C62, C63: equivalent widths. -/
namespace Dsps.Props
open Jnp Dsps.Utils Dsps.EquivalentWidth Dsps.Lemmas Spec Matrix
open scoped BigOperators

variable {n : ℕ}

/-- The wavelength lies in one of the two continuum windows. -/
def InWindows (lo1 hi1 lo2 hi2 x : ℝ) : Prop := (lo1 ≤ x ∧ x ≤ hi1) ∨ (lo2 ≤ x ∧ x ≤ hi2)

theorem quadfit_one {x a b c d : ℝ} (h : InWindows a b c d x) : get_quadfit_weights x a b c d = 1 := by
  unfold get_quadfit_weights; exact if_pos h
theorem quadfit_zero {x a b c d : ℝ} (h : ¬ InWindows a b c d x) : get_quadfit_weights x a b c d = 0 := by
  unfold get_quadfit_weights; exact if_neg h

/-- The solver hypothesis used below can be met. -/
example : ∃ lstsq : Lstsq n, IsLstsq lstsq := exists_lstsq

/-! ### C62 -/

theorem quad_unique {x y z a b c : ℝ} (hxy : x ≠ y) (hyz : y ≠ z) (hxz : x ≠ z)
    (hx : a * x ^ 2 + b * x + c = 0) (hy : a * y ^ 2 + b * y + c = 0) (hz : a * z ^ 2 + b * z + c = 0) :
    a = 0 ∧ b = 0 ∧ c = 0 := by
  have h1 : (x - y) * (a * (x + y) + b) = 0 := by linarith
  have h2 : (y - z) * (a * (y + z) + b) = 0 := by linarith
  have h1' := (mul_eq_zero.1 h1).resolve_left (sub_ne_zero.2 hxy)
  have h2' := (mul_eq_zero.1 h2).resolve_left (sub_ne_zero.2 hyz)
  have h3 : a * (x - z) = 0 := by linarith
  have ha : a = 0 := (mul_eq_zero.1 h3).resolve_right (sub_ne_zero.2 hxz)
  have hb : b = 0 := by rw [ha] at h1'; linarith
  refine ⟨ha, hb, ?_⟩
  rw [ha, hb] at hx; linarith

/-- the weighted fit recovers an exact quadratic -/
theorem fit_exact {lstsq : Lstsq n} (hl : IsLstsq lstsq) {x y w : Fin n → ℝ} {q0 q1 q2 : ℝ}
    (hw : ∀ i, w i ≠ 0 → y i = q0 + q1 * x i + q2 * x i ^ 2)
    {i j k : Fin n} (hi : w i ≠ 0) (hj : w j ≠ 0) (hk : w k ≠ 0) (hij : x i ≠ x j) (hjk : x j ≠ x k) (hik : x i ≠ x k) :
    weighted_quadratic_fit lstsq x y w = ![q2, q1, q0] := by
  have hS : ∀ c : Fin 3, ∃ l, vander3 x l c * w l ≠ 0 := by
    intro c
    have key : ∃ l, w l ≠ 0 ∧ x l ≠ 0 := by
      by_cases h : x i = 0
      · exact ⟨j, hj, fun h' => hij (h.trans h'.symm)⟩
      · exact ⟨i, hi, h⟩
    obtain ⟨l, h1, h2⟩ := key
    exact ⟨l, mul_ne_zero (pow_ne_zero _ h2) h1⟩
  have hpos : ∀ c : Fin 3, 0 < Real.sqrt (∑ l, (vander3 x l c * w l) * (vander3 x l c * w l)) := by
    intro c
    obtain ⟨l, h⟩ := hS c
    apply Real.sqrt_pos.2
    exact Finset.sum_pos' (fun l _ => mul_self_nonneg _) ⟨l, Finset.mem_univ _, mul_self_pos.2 h⟩
  unfold weighted_quadratic_fit
  simp only
  generalize hsc : (fun c : Fin 3 => Real.sqrt (∑ l, (vander3 x l c * w l) * (vander3 x l c * w l))) = sc
  have hsc' : ∀ c, Real.sqrt (∑ l, (vander3 x l c * w l) * (vander3 x l c * w l)) = sc c := fun c => congrFun hsc c
  have hp : ∀ c, 0 < sc c := fun c => by rw [← hsc' c]; exact hpos c
  simp only [hsc']
  generalize hA : (fun l c => vander3 x l c * w l / sc c : Matrix (Fin n) (Fin 3) ℝ) = A
  have hLS := (hl A (fun l => y l * w l)).1
  generalize hc : lstsq A (fun l => y l * w l) = c at hLS
  have hmul : ∀ (v : Fin 3 → ℝ) l, (A *ᵥ v) l = (v 0 / sc 0 * x l ^ 2 + v 1 / sc 1 * x l + v 2 / sc 2) * w l := by
    intro v l
    rw [← hA]
    simp only [mulVec, dotProduct, Fin.sum_univ_three, vander3]
    simp
    ring
  have hzero := hLS (fun k => (![q2, q1, q0] : Fin 3 → ℝ) k * sc k)
  have hex : A *ᵥ (fun k => (![q2, q1, q0] : Fin 3 → ℝ) k * sc k) - (fun l => y l * w l) = 0 := by
    funext l
    rw [Pi.sub_apply, hmul, Pi.zero_apply]
    have h0 := (hp 0).ne'
    have h1 := (hp 1).ne'
    have h2 := (hp 2).ne'
    simp only [Matrix.cons_val_zero, Matrix.cons_val_one, Matrix.cons_val_two, Matrix.head_cons, Matrix.tail_cons]
    rw [mul_div_cancel_right₀ _ h0, mul_div_cancel_right₀ _ h1]
    rw [mul_div_cancel_right₀ _ h2]
    by_cases hwl : w l = 0
    · rw [hwl]; ring
    · rw [hw l hwl]; ring
  rw [hex] at hzero
  have hres : A *ᵥ c - (fun l => y l * w l) = 0 := by
    apply dot_self_zero
    apply le_antisymm _ (dot_self_nonneg _)
    simpa using hzero
  have hpt : ∀ l, w l ≠ 0 →
      (c 0 / sc 0 - q2) * x l ^ 2 + (c 1 / sc 1 - q1) * x l + (c 2 / sc 2 - q0) = 0 := by
    intro l hwl
    have := congrFun hres l
    rw [Pi.sub_apply, hmul, Pi.zero_apply, hw l hwl] at this
    have h2 : ((c 0 / sc 0 - q2) * x l ^ 2 + (c 1 / sc 1 - q1) * x l + (c 2 / sc 2 - q0)) * w l = 0 := by linarith
    exact (mul_eq_zero.1 h2).resolve_right hwl
  obtain ⟨e0, e1, e2⟩ := quad_unique hij hjk hik (hpt i hi) (hpt j hj) (hpt k hk)
  funext l
  fin_cases l
  · show c 0 / sc 0 = q2; linarith
  · show c 1 / sc 1 = q1; linarith
  · show c 2 / sc 2 = q0; linarith

/-- the data recovered by the kernel, given the fit -/
theorem kernel_of_fit (lstsq : Lstsq (n + 1)) (wave flux : Fin (n + 1) → ℝ) (llo lmid lhi a b c d : ℝ) {q0 q1 q2 : ℝ}
    (h : weighted_quadratic_fit lstsq wave flux (fun i => get_quadfit_weights (wave i) a b c d) = ![q2, q1, q0]) :
    let r := continuum_line_decomp_kern lstsq wave flux llo lmid lhi a b c d
    r.2.2.2 = ![q2, q1, q0] ∧ r.2.2.1 = q0 + q1 * lmid + q2 * lmid ^ 2 ∧
    r.2.1 = trapz wave (fun i => open Classical in
      if llo ≤ wave i ∧ wave i ≤ lhi then flux i - (q0 + q1 * wave i + q2 * wave i ^ 2) else 0) ∧
    r.1 = r.2.1 / (q0 + q1 * lmid + q2 * lmid ^ 2) := by
  unfold continuum_line_decomp_kern
  simp only [h]
  have e2 : (![q2, q1, q0] : Fin 3 → ℝ) 2 = q0 := rfl
  simp only [Matrix.cons_val_zero, Matrix.cons_val_one, e2, true_and, and_true]
  rw [sub_eq_add_neg, ← neg_one_mul, ← trapz_smul, ← trapz_add']
  congr 1
  funext i
  unfold get_integration_weights
  simp only [ge_iff_le]
  split_ifs <;> ring

/-- C62: if the flux is exactly quadratic in the continuum windows, and these contain three distinct sample wavelengths, the
fitted coefficients (highest power first) are that quadratic, the continuum strength is its value at the line centre, the line
flux is the trapezoid integral over the line window of flux minus quadratic, and the equivalent width is their ratio. -/
theorem C62_recovers_quadratic {lstsq : Lstsq (n + 1)} (hl : IsLstsq lstsq) {wave flux : Fin (n + 1) → ℝ}
    (llo lmid lhi : ℝ) {a b c d q0 q1 q2 : ℝ}
    (hq : ∀ i, InWindows a b c d (wave i) → flux i = q0 + q1 * wave i + q2 * wave i ^ 2)
    (h3 : ∃ i j k, InWindows a b c d (wave i) ∧ InWindows a b c d (wave j) ∧ InWindows a b c d (wave k) ∧
      wave i ≠ wave j ∧ wave j ≠ wave k ∧ wave i ≠ wave k) :
    let r := continuum_line_decomp_kern lstsq wave flux llo lmid lhi a b c d
    r.2.2.2 = ![q2, q1, q0] ∧ r.2.2.1 = q0 + q1 * lmid + q2 * lmid ^ 2 ∧
    r.2.1 = trapz wave (fun i => open Classical in
      if llo ≤ wave i ∧ wave i ≤ lhi then flux i - (q0 + q1 * wave i + q2 * wave i ^ 2) else 0) ∧
    r.1 = r.2.1 / (q0 + q1 * lmid + q2 * lmid ^ 2) := by
  obtain ⟨i, j, k, hi, hj, hk, hij, hjk, hik⟩ := h3
  apply kernel_of_fit
  have hne : ∀ l, get_quadfit_weights (wave l) a b c d ≠ 0 → InWindows a b c d (wave l) := by
    intro l h; by_contra hc; exact h (quadfit_zero hc)
  apply fit_exact hl (fun l h => hq l (hne l h)) (i := i) (j := j) (k := k) _ _ _ hij hjk hik
  · rw [quadfit_one hi]; exact one_ne_zero
  · rw [quadfit_one hj]; exact one_ne_zero
  · rw [quadfit_one hk]; exact one_ne_zero

/-- C62: a spectrum with no line has zero line flux and zero equivalent width. -/
theorem C62_no_line {lstsq : Lstsq (n + 1)} (hl : IsLstsq lstsq) {wave flux : Fin (n + 1) → ℝ}
    (llo lmid lhi : ℝ) {a b c d q0 q1 q2 : ℝ}
    (hq : ∀ i, InWindows a b c d (wave i) ∨ (llo ≤ wave i ∧ wave i ≤ lhi) →
      flux i = q0 + q1 * wave i + q2 * wave i ^ 2)
    (h3 : ∃ i j k, InWindows a b c d (wave i) ∧ InWindows a b c d (wave j) ∧ InWindows a b c d (wave k) ∧
      wave i ≠ wave j ∧ wave j ≠ wave k ∧ wave i ≠ wave k) :
    ew_kernel lstsq wave flux llo lmid lhi a b c d = (0, 0) := by
  have h := C62_recovers_quadratic hl llo lmid lhi (fun i hi => hq i (Or.inl hi)) h3
  simp only at h
  have e : trapz wave (fun i => open Classical in
      if llo ≤ wave i ∧ wave i ≤ lhi then flux i - (q0 + q1 * wave i + q2 * wave i ^ 2) else 0) = 0 := by
    have : (fun i => open Classical in
      if llo ≤ wave i ∧ wave i ≤ lhi then flux i - (q0 + q1 * wave i + q2 * wave i ^ 2) else 0) = fun i => 0 * wave i := by
      funext i
      split_ifs with hi
      · rw [hq i (Or.inr hi)]; ring
      · ring
    rw [this, trapz_smul, zero_mul]
  have hk : ew_kernel lstsq wave flux llo lmid lhi a b c d
      = ((continuum_line_decomp_kern lstsq wave flux llo lmid lhi a b c d).1,
         (continuum_line_decomp_kern lstsq wave flux llo lmid lhi a b c d).2.1) := rfl
  rw [hk, h.2.2.2, h.2.2.1, e, zero_div]

/-- C62: a line on top of a quadratic continuum.  If the line vanishes in the continuum windows, the line flux is the trapezoid
integral of the line profile over the line window. -/
theorem C62_line_on_continuum {lstsq : Lstsq (n + 1)} (hl : IsLstsq lstsq) {wave line : Fin (n + 1) → ℝ}
    (llo lmid lhi : ℝ) {a b c d q0 q1 q2 : ℝ} (hline : ∀ i, InWindows a b c d (wave i) → line i = 0)
    (h3 : ∃ i j k, InWindows a b c d (wave i) ∧ InWindows a b c d (wave j) ∧ InWindows a b c d (wave k) ∧
      wave i ≠ wave j ∧ wave j ≠ wave k ∧ wave i ≠ wave k) :
    let F := trapz wave (fun i => open Classical in if llo ≤ wave i ∧ wave i ≤ lhi then line i else 0)
    ew_kernel lstsq wave (fun i => q0 + q1 * wave i + q2 * wave i ^ 2 + line i) llo lmid lhi a b c d
      = (F / (q0 + q1 * lmid + q2 * lmid ^ 2), F) := by
  have h := C62_recovers_quadratic hl (flux := fun i => q0 + q1 * wave i + q2 * wave i ^ 2 + line i) llo lmid lhi
    (fun i hi => by rw [hline i hi, add_zero]) h3
  simp only at h
  have hk : ∀ f, ew_kernel lstsq wave f llo lmid lhi a b c d
      = ((continuum_line_decomp_kern lstsq wave f llo lmid lhi a b c d).1,
         (continuum_line_decomp_kern lstsq wave f llo lmid lhi a b c d).2.1) := fun f => rfl
  simp only [add_sub_cancel_left] at h
  rw [hk, h.2.2.2, h.2.2.1]

/-- Windows and a grid meeting the hypotheses. -/
example : ∃ i j k : Fin 6, InWindows 1 2 5 6 ((![1, 2, 3, 4, 5, 6] : Fin 6 → ℝ) i) ∧
    InWindows 1 2 5 6 ((![1, 2, 3, 4, 5, 6] : Fin 6 → ℝ) j) ∧ InWindows 1 2 5 6 ((![1, 2, 3, 4, 5, 6] : Fin 6 → ℝ) k) ∧
    (![1, 2, 3, 4, 5, 6] : Fin 6 → ℝ) i ≠ (![1, 2, 3, 4, 5, 6] : Fin 6 → ℝ) j ∧
    (![1, 2, 3, 4, 5, 6] : Fin 6 → ℝ) j ≠ (![1, 2, 3, 4, 5, 6] : Fin 6 → ℝ) k ∧
    (![1, 2, 3, 4, 5, 6] : Fin 6 → ℝ) i ≠ (![1, 2, 3, 4, 5, 6] : Fin 6 → ℝ) k := by
  refine ⟨0, 1, 4, ?_⟩
  show InWindows 1 2 5 6 1 ∧ InWindows 1 2 5 6 2 ∧ InWindows 1 2 5 6 5 ∧ (1 : ℝ) ≠ 2 ∧ (2 : ℝ) ≠ 5 ∧ (1 : ℝ) ≠ 5
  unfold InWindows; norm_num

/-! ### C63 -/

/-- C63: the equivalent-width kernel returns the first two outputs of the decomposition kernel, and the equivalent width is the
line flux divided by the continuum strength. -/
theorem C63_kernels_agree (lstsq : Lstsq (n + 1)) (wave flux : Fin (n + 1) → ℝ) (llo lmid lhi a b c d : ℝ) :
    let r := continuum_line_decomp_kern lstsq wave flux llo lmid lhi a b c d
    ew_kernel lstsq wave flux llo lmid lhi a b c d = (r.1, r.2.1) ∧ r.1 = r.2.1 / r.2.2.1 ∧
    r.2.2.1 = r.2.2.2 2 + r.2.2.2 1 * lmid + r.2.2.2 0 * lmid ^ 2 := ⟨rfl, rfl, rfl⟩

theorem fit_linear {lstsq : Lstsq n} (hl : IsLstsq lstsq) (x f g w : Fin n → ℝ) (s t : ℝ) (k : Fin 3) :
    weighted_quadratic_fit lstsq x (fun i => s * f i + t * g i) w k
      = s * weighted_quadratic_fit lstsq x f w k + t * weighted_quadratic_fit lstsq x g w k := by
  unfold weighted_quadratic_fit
  simp only
  generalize (fun i k => vander3 x i k * w i / Real.sqrt (∑ l, vander3 x l k * w l * (vander3 x l k * w l))) = A
  generalize Real.sqrt (∑ l, vander3 x l k * w l * (vander3 x l k * w l)) = sc
  have h := congrFun (lstsq_linear hl A (fun i => f i * w i) (fun i => g i * w i) s t) k
  have e : (s • (fun i => f i * w i) + t • (fun i => g i * w i)) = fun i => (s * f i + t * g i) * w i := by
    funext i; simp only [Pi.add_apply, Pi.smul_apply, smul_eq_mul]; ring
  have h' : lstsq A (fun i => (s * f i + t * g i) * w i) k
      = s * lstsq A (fun i => f i * w i) k + t * lstsq A (fun i => g i * w i) k := by
    rw [← e]; exact h
  rw [h']
  ring

/-- C63: line flux, continuum strength and fit coefficients are linear in the flux. -/
theorem C63_linear {lstsq : Lstsq (n + 1)} (hl : IsLstsq lstsq) (wave f g : Fin (n + 1) → ℝ) (llo lmid lhi a b c d s t : ℝ) :
    let r := fun y => continuum_line_decomp_kern lstsq wave y llo lmid lhi a b c d
    (r fun i => s * f i + t * g i).2.1 = s * (r f).2.1 + t * (r g).2.1 ∧
    (r fun i => s * f i + t * g i).2.2.1 = s * (r f).2.2.1 + t * (r g).2.2.1 ∧
    ∀ k, (r fun i => s * f i + t * g i).2.2.2 k = s * (r f).2.2.2 k + t * (r g).2.2.2 k := by
  have hfit := fit_linear hl wave f g (fun i => get_quadfit_weights (wave i) a b c d) s t
  refine ⟨?_, ?_, hfit⟩
  · unfold continuum_line_decomp_kern
    simp only [hfit]
    rw [mul_sub, mul_sub, ← trapz_smul, ← trapz_smul, ← trapz_smul, ← trapz_smul]
    rw [show ∀ A B C D : ℝ, A - B + (C - D) = (A + C) - (B + D) by intros; ring, ← trapz_add', ← trapz_add']
    congr 1
    · congr 1; funext i; ring
    · congr 1; funext i; ring
  · unfold continuum_line_decomp_kern
    simp only [hfit]
    ring

/-- C63: multiplying the flux by a nonzero constant multiplies line flux and continuum by it and leaves the equivalent
width unchanged. -/
theorem C63_scale_invariant {lstsq : Lstsq (n + 1)} (hl : IsLstsq lstsq) (wave f : Fin (n + 1) → ℝ)
    (llo lmid lhi a b c d : ℝ) {s : ℝ} (hs : s ≠ 0) :
    let r := fun y => continuum_line_decomp_kern lstsq wave y llo lmid lhi a b c d
    (r fun i => s * f i).2.1 = s * (r f).2.1 ∧ (r fun i => s * f i).2.2.1 = s * (r f).2.2.1 ∧
    (r fun i => s * f i).1 = (r f).1 := by
  obtain ⟨h1, h2, -⟩ := C63_linear hl wave f f llo lmid lhi a b c d s 0
  simp only [zero_mul, add_zero] at h1 h2
  refine ⟨h1, h2, ?_⟩
  obtain ⟨-, e1, -⟩ := C63_kernels_agree lstsq wave (fun i => s * f i) llo lmid lhi a b c d
  obtain ⟨-, e2, -⟩ := C63_kernels_agree lstsq wave f llo lmid lhi a b c d
  simp only at e1 e2 ⊢
  rw [e1, e2, h1, h2, mul_div_mul_left _ _ hs]

/-- C63: adding any quadratic continuum to a spectrum does not change its line flux (three distinct wavelengths in
the continuum windows). -/
theorem C63_continuum_subtraction {lstsq : Lstsq (n + 1)} (hl : IsLstsq lstsq) {wave f : Fin (n + 1) → ℝ}
    (llo lmid lhi : ℝ) {a b c d : ℝ} (q0 q1 q2 : ℝ)
    (h3 : ∃ i j k, InWindows a b c d (wave i) ∧ InWindows a b c d (wave j) ∧ InWindows a b c d (wave k) ∧
      wave i ≠ wave j ∧ wave j ≠ wave k ∧ wave i ≠ wave k) :
    (ew_kernel lstsq wave (fun i => f i + (q0 + q1 * wave i + q2 * wave i ^ 2)) llo lmid lhi a b c d).2
      = (ew_kernel lstsq wave f llo lmid lhi a b c d).2 := by
  have h := (C63_linear hl wave f (fun i => q0 + q1 * wave i + q2 * wave i ^ 2) llo lmid lhi a b c d 1 1).1
  have h0 := C62_no_line hl (wave := wave) (flux := fun i => q0 + q1 * wave i + q2 * wave i ^ 2) llo lmid lhi
    (fun i _ => rfl) h3
  simp only [one_mul] at h
  have hk : ∀ y, (ew_kernel lstsq wave y llo lmid lhi a b c d).2
      = (continuum_line_decomp_kern lstsq wave y llo lmid lhi a b c d).2.1 := fun _ => rfl
  rw [hk, hk, h, ← hk, ← hk, h0]
  simp

/-! ## The theorems applied to a spectrum of six samples with continuum windows [1, 2] and [5, 6] and a line at 3.5 -/

/-- wavelengths -/
noncomputable def ewWave : Fin 6 → ℝ := ![1, 2, 3, 4, 5, 6]
/-- a line that vanishes in the continuum windows -/
noncomputable def ewLine : Fin 6 → ℝ := ![0, 0, 3, 2, 0, 0]

theorem ewWave_three : ∃ i j k, InWindows 1 2 5 6 (ewWave i) ∧ InWindows 1 2 5 6 (ewWave j) ∧ InWindows 1 2 5 6 (ewWave k) ∧
    ewWave i ≠ ewWave j ∧ ewWave j ≠ ewWave k ∧ ewWave i ≠ ewWave k := by
  refine ⟨0, 1, 4, ?_⟩
  show InWindows 1 2 5 6 1 ∧ InWindows 1 2 5 6 2 ∧ InWindows 1 2 5 6 5 ∧ (1 : ℝ) ≠ 2 ∧ (2 : ℝ) ≠ 5 ∧ (1 : ℝ) ≠ 5
  unfold InWindows; norm_num
theorem ewLine_zero : ∀ i, InWindows 1 2 5 6 (ewWave i) → ewLine i = 0 := by
  intro i h
  fin_cases i <;> first | rfl | (exfalso; revert h; simp [InWindows, ewWave]; norm_num)
/-- a least-squares solver -/
noncomputable def ewSolver : Lstsq 6 := (exists_lstsq (n := 6) (m := 3)).choose
theorem ewSolver_spec : IsLstsq ewSolver := (exists_lstsq (n := 6) (m := 3)).choose_spec

/-- C62 applied: quadratic continuum outside the line -/
example := C62_recovers_quadratic (n := 5) ewSolver_spec (wave := ewWave) (flux := fun i => 7 - ewWave i + 2 * ewWave i ^ 2 + ewLine i)
  3 3.5 4 (q0 := 7) (q1 := -1) (q2 := 2) (fun i h => by rw [ewLine_zero i h]; ring) ewWave_three
example : ew_kernel (n := 5) ewSolver ewWave (fun i => 7 - ewWave i + 2 * ewWave i ^ 2) 3 3.5 4 1 2 5 6 = (0, 0) :=
  C62_no_line ewSolver_spec 3 3.5 4 (q0 := 7) (q1 := -1) (q2 := 2) (fun i _ => by ring) ewWave_three
example := C62_line_on_continuum (n := 5) ewSolver_spec (wave := ewWave) (line := ewLine) 3 3.5 4 (q0 := 7) (q1 := -1) (q2 := 2)
  ewLine_zero ewWave_three
/-- C63 applied -/
example := C63_linear (n := 5) ewSolver_spec ewWave ewLine (fun i => ewWave i ^ 3) 3 3.5 4 1 2 5 6 2 (-3)
example := C63_scale_invariant (n := 5) ewSolver_spec ewWave (fun i => 7 + ewLine i) 3 3.5 4 1 2 5 6 (s := 4) (by norm_num)
example := C63_continuum_subtraction (n := 5) ewSolver_spec (wave := ewWave) (f := ewLine) 3 3.5 4 7 (-1) 2 ewWave_three

end Dsps.Props
