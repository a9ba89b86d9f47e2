import Verif.Props.RefinePhot
import Mathlib.Analysis.Calculus.ContDiff.Operations

/-! C166: the package's quadrature and interpolation are second-order accurate: halving the gaps of the table divides the error by four
(`/repo/dsps/utils.py:trapz`, `/repo/dsps/utils.py:cumulative_mstar_formed`, `/repo/dsps/photometry/photometry_kernels.py`). -/
namespace Dsps.Props
open Dsps.Utils Dsps.Lemmas Dsps.Photometry Dsps.Constants Dsps.StellarAgeWeights Jnp Spec Set
open scoped BigOperators

variable {f L Tr S : ℝ → ℝ} {a b c d z M K : ℝ} {n : ℕ}

/-- **Specification.** on `[a, b]` the function is continuous, and inside it has a second derivative of size at most `M` -/
structure Curved (M : ℝ) (f : ℝ → ℝ) (a b : ℝ) : Prop where
  cont : ContinuousOn f (Icc a b)
  deriv2 : ∃ f' f'' : ℝ → ℝ, ∀ x ∈ Ioo a b, HasDerivAt f (f' x) x ∧ HasDerivAt f' (f'' x) x ∧ |f'' x| ≤ M

lemma Curved.mono (h : Curved M f a b) (hs : Icc c d ⊆ Icc a b) (ho : Ioo c d ⊆ Ioo a b) : Curved M f c d :=
  ⟨h.cont.mono hs, h.deriv2.imp fun _ h => h.imp fun _ h x hx => h x (ho hx)⟩

lemma Curved.sub (h : Curved M f a b) (h1 : a ≤ c) (h2 : d ≤ b) : Curved M f c d :=
  h.mono (Icc_subset_Icc h1 h2) (Ioo_subset_Ioo h1 h2)

lemma Curved.congr_le (h : Curved M f a b) (hK : M ≤ K) : Curved K f a b :=
  ⟨h.cont, h.deriv2.imp fun _ h => h.imp fun _ h x hx => ⟨(h x hx).1, (h x hx).2.1, (h x hx).2.2.trans hK⟩⟩

lemma Curved.neg (h : Curved M f a b) : Curved M (fun x => -f x) a b := by
  obtain ⟨hc, f', f'', h⟩ := h
  exact ⟨hc.neg, fun x => -f' x, fun x => -f'' x, fun x hx => ⟨(h x hx).1.neg, (h x hx).2.1.neg, by rw [abs_neg]; exact (h x hx).2.2⟩⟩

lemma Curved.convex (h : Curved M f a b) : ConvexOn ℝ (Icc a b) (fun x => f x + M / 2 * x ^ 2) := by
  obtain ⟨hc, f', f'', h⟩ := h
  apply convexOn_of_hasDerivWithinAt2_nonneg (convex_Icc a b) (f' := fun x => f' x + M * x) (f'' := fun x => f'' x + M)
  · exact hc.add (by fun_prop)
  · intro x hx
    rw [interior_Icc] at hx
    refine ((h x hx).1.add (((hasDerivAt_id x).pow 2).const_mul (M / 2))).hasDerivWithinAt.congr_deriv ?_
    simp; ring
  · intro x hx
    rw [interior_Icc] at hx
    refine ((h x hx).2.1.add ((hasDerivAt_id x).const_mul M)).hasDerivWithinAt.congr_deriv ?_
    simp
  · intro x hx
    rw [interior_Icc] at hx
    linarith [(abs_le.mp (h x hx).2.2).1]

lemma Curved.cell_le (hab : a ≤ b) (h : Curved M f a b) :
    (∫ x in a..b, f x) - (b - a) * (f a + f b) / 2 ≤ M * (b - a) ^ 3 / 12 := by
  have hi : IntervalIntegrable f MeasureTheory.volume a b := (h.cont.mono (by rw [uIcc_of_le hab])).intervalIntegrable
  have hc := cell_le_trap hab (h.cont.add (by fun_prop : ContinuousOn (fun x : ℝ => M / 2 * x ^ 2) (Icc a b))) h.convex
  simp only [Pi.add_apply] at hc
  rw [intervalIntegral.integral_add hi (Continuous.intervalIntegrable (by fun_prop) _ _), intervalIntegral.integral_const_mul, integral_pow] at hc
  norm_num at hc
  linarith [show (b - a) * (f a + M / 2 * a ^ 2 + (f b + M / 2 * b ^ 2)) / 2 - M / 2 * ((b ^ 3 - a ^ 3) / 3) = (b - a) * (f a + f b) / 2 + M * (b - a) ^ 3 / 12 by ring]

/-- trapezoid on one cell -/
lemma Curved.cell (hab : a ≤ b) (h : Curved M f a b) :
    |trapezoidArea a b (f a) (f b) - ∫ x in a..b, f x| ≤ M * (b - a) ^ 3 / 12 := by
  have h1 := h.cell_le hab
  have h2 := h.neg.cell_le hab
  rw [intervalIntegral.integral_neg] at h2
  unfold trapezoidArea
  rw [abs_le]
  constructor <;> linarith

lemma Curved.chord_le (hab : a < b) (h : Curved M f a b) {x : ℝ} (hx : x ∈ Icc a b) :
    f x - (f a + (x - a) / (b - a) * (f b - f a)) ≤ M / 8 * (b - a) ^ 2 := by
  have hba : 0 < b - a := sub_pos.mpr hab
  have h0 : 0 ≤ M ∨ M < 0 := le_or_gt 0 M
  have hM : 0 ≤ M := by
    obtain ⟨_, f', f'', h⟩ := h
    exact (abs_nonneg _).trans (h ((a + b) / 2) ⟨by linarith, by linarith⟩).2.2
  have hs := h.convex.2 (left_mem_Icc.2 hab.le) (right_mem_Icc.2 hab.le)
    (div_nonneg (sub_nonneg.2 hx.2) hba.le) (div_nonneg (sub_nonneg.2 hx.1) hba.le) (by field_simp; ring)
  simp only [smul_eq_mul] at hs
  rw [show (b - x) / (b - a) * a + (x - a) / (b - a) * b = x by field_simp; ring] at hs
  have e : (b - x) / (b - a) * (f a + M / 2 * a ^ 2) + (x - a) / (b - a) * (f b + M / 2 * b ^ 2) =
      f a + (x - a) / (b - a) * (f b - f a) + M / 2 * (x ^ 2 + (x - a) * (b - x)) := by field_simp; ring
  rw [e] at hs
  have q : (x - a) * (b - x) ≤ (b - a) ^ 2 / 4 := by nlinarith [sq_nonneg ((x - a) - (b - x))]
  nlinarith

/-- straight line through the ends of a cell -/
lemma Curved.chord (hab : a < b) (h : Curved M f a b) {x : ℝ} (hx : x ∈ Icc a b) :
    |f a + (x - a) / (b - a) * (f b - f a) - f x| ≤ M / 8 * (b - a) ^ 2 := by
  have h1 := h.chord_le hab hx
  have h2 := h.neg.chord_le hab hx
  rw [abs_le]
  constructor
  · linarith
  · have e : (x - a) / (b - a) * (-f b - -f a) = -((x - a) / (b - a) * (f b - f a)) := by ring
    rw [e] at h2
    linarith

lemma Curved.nonneg (hab : a < b) (h : Curved M f a b) : 0 ≤ M := by
  obtain ⟨_, f', f'', h⟩ := h
  exact (abs_nonneg _).trans (h ((a + b) / 2) ⟨by linarith, by linarith⟩).2.2

/-- functions with continuous second derivatives -/
lemma Curved.of_contDiff (hf : ContDiffOn ℝ 2 f (Icc a b)) : ∃ M, 0 ≤ M ∧ Curved M f a b := by
  rcases lt_or_ge a b with hab | hab
  swap
  · exact ⟨0, le_rfl, hf.continuousOn, 0, 0, fun x hx => absurd (hx.1.trans hx.2) (not_lt.mpr hab)⟩
  have hu := uniqueDiffOn_Icc hab
  have h1 : ContDiffOn ℝ 1 (derivWithin f (Icc a b)) (Icc a b) := hf.derivWithin hu (by norm_num)
  have h2 : ContDiffOn ℝ 0 (derivWithin (derivWithin f (Icc a b)) (Icc a b)) (Icc a b) := h1.derivWithin hu (by norm_num)
  obtain ⟨y, hy, hM⟩ := isCompact_Icc.exists_isMaxOn (nonempty_Icc.mpr hab.le) h2.continuousOn.abs
  refine ⟨_, abs_nonneg _, hf.continuousOn, derivWithin f (Icc a b), derivWithin (derivWithin f (Icc a b)) (Icc a b), fun x hx => ⟨?_, ?_, hM (Ioo_subset_Icc_self hx)⟩⟩
  · exact ((hf.differentiableOn (by norm_num)) x (Ioo_subset_Icc_self hx)).hasDerivWithinAt.hasDerivAt (Icc_mem_nhds hx.1 hx.2)
  · exact ((h1.differentiableOn (by norm_num)) x (Ioo_subset_Icc_self hx)).hasDerivWithinAt.hasDerivAt (Icc_mem_nhds hx.1 hx.2)

/-- C166: **quadrature**: on every increasing table, the trapezoid rule is within `M δ² / 12` per unit length of the integral of a function with second
derivative at most `M`, `δ` being the widest gap. -/
theorem C166_trapz {δ : ℝ} {x : Fin (n + 1) → ℝ} (hx : Monotone x) (h : Curved M f (x 0) (x (Fin.last n))) (hM : 0 ≤ M)
    (hδ : ∀ i : Fin n, x i.succ - x i.castSucc ≤ δ) :
    |trapz x (fun i => f (x i)) - ∫ y in x 0..x (Fin.last n), f y| ≤ M * δ ^ 2 / 12 * (x (Fin.last n) - x 0) := by
  have hle : ∀ i : Fin n, x i.castSucc ≤ x i.succ := fun i => hx (Fin.castSucc_lt_succ).le
  have hsub : ∀ i : Fin n, Curved M f (x i.castSucc) (x i.succ) := fun i => h.sub (hx (Fin.zero_le _)) (hx (Fin.le_last _))
  rw [← sum_cells (f := f) x (fun i => ((hsub i).cont.mono (by rw [uIcc_of_le (hle i)])).intervalIntegrable), trapz_eq, ← Finset.sum_sub_distrib]
  refine (Finset.abs_sum_le_sum_abs _ _).trans ?_
  rw [← sum_telescope x, Finset.mul_sum]
  refine Finset.sum_le_sum fun i _ => ?_
  have h1 := (hsub i).cell (hle i)
  unfold trapezoidArea at h1
  refine (show _ ≤ _ by convert h1 using 3).trans ?_
  have h2 := sub_nonneg.mpr (hle i)
  have h3 : (x i.succ - x i.castSucc) ^ 2 ≤ δ ^ 2 := pow_le_pow_left₀ h2 (hδ i) 2
  have : M * (x i.succ - x i.castSucc) * (x i.succ - x i.castSucc) ^ 2 ≤ M * (x i.succ - x i.castSucc) * δ ^ 2 :=
    mul_le_mul_of_nonneg_left h3 (mul_nonneg hM h2)
  nlinarith

/-- C166: **interpolation**: within a table whose gaps are wider than the guard of `jnp.interp`, the interpolated value is within `M δ² / 8` of the
function. -/
theorem C166_interp [Dtype] {δ x : ℝ} {w : Fin (n + 2) → ℝ} (hw : Resolved w) (h : Curved M f (w 0) (w (Fin.last (n + 1)))) (hM : 0 ≤ M)
    (hδ : ∀ i : Fin (n + 1), w i.succ - w i.castSucc ≤ δ) (hx : x ∈ Icc (w 0) (w (Fin.last (n + 1)))) :
    |interp x w (fun i => f (w i)) - f x| ≤ M / 8 * δ ^ 2 := by
  have hm := hw.strictMono
  have c0 := interpCell_left hm.monotone (x := x) hx.1
  have c1 := interpCell_right hm.monotone (x := x) hx.2
  rw [interp_cell hw _ (interpCell w x) c0 c1]
  generalize interpCell w x = i at *
  refine ((h.sub (hm.monotone (Fin.zero_le _)) (hm.monotone (Fin.le_last _))).chord (hm Fin.castSucc_lt_succ) ⟨c0, c1⟩).trans ?_
  have h2 : 0 ≤ w i.succ - w i.castSucc := sub_nonneg.mpr (hm Fin.castSucc_lt_succ).le
  exact mul_le_mul_of_nonneg_left (pow_le_pow_left₀ h2 (hδ i) 2) (by positivity)

/-! ## fluxes and magnitudes -/

lemma Curved.scale {k : ℝ} (hk : 0 < k) (h : Curved M f (k * a) (k * b)) : Curved (M * k ^ 2) (fun x => f (k * x)) a b := by
  obtain ⟨hc, f', f'', h⟩ := h
  refine ⟨hc.comp (by fun_prop) fun x hx => ⟨mul_le_mul_of_nonneg_left hx.1 hk.le, mul_le_mul_of_nonneg_left hx.2 hk.le⟩,
    fun x => k * f' (k * x), fun x => k * (k * f'' (k * x)), fun x hx => ?_⟩
  have hm : k * x ∈ Ioo (k * a) (k * b) := ⟨mul_lt_mul_of_pos_left hx.1 hk, mul_lt_mul_of_pos_left hx.2 hk⟩
  obtain ⟨h1, h2, h3⟩ := h _ hm
  have hd : HasDerivAt (fun x => k * x) k x := by simpa using (hasDerivAt_id x).const_mul k
  refine ⟨(h1.comp x hd).congr_deriv (by ring), ((h2.comp x hd).const_mul k).congr_deriv (by ring), ?_⟩
  rw [abs_mul, abs_mul, abs_of_pos hk]
  nlinarith [mul_le_mul_of_nonneg_left h3 (mul_pos hk hk).le]

/-- C166: **flux through a filter**: the error is at most `MG δf²/12` (quadrature on the filter's grid) plus `K ML δw²/8` (interpolation of the
spectrum) per unit of wavelength, where `ML` bounds the second derivative of the spectrum, `MG` that of `T(λ) L(λ/(1+z))/λ`, and `K` bounds `T(λ)/λ`. -/
theorem C166_flux [Dtype] {m : ℕ} {δw δf ML MG : ℝ} {w : Fin (n + 2) → ℝ} {fw : Fin (m + 2) → ℝ} (hw : Resolved fun j => w j * (1 + z))
    (hgw : ∀ i : Fin (n + 1), w i.succ - w i.castSucc ≤ δw) (hgf : ∀ i : Fin (m + 1), fw i.succ - fw i.castSucc ≤ δf) (hf : Monotone fw)
    (hc : Covered (fw 0) (fw (Fin.last (m + 1))) (w 0) (w (Fin.last (n + 1))) z) (hL : Curved ML L (w 0) (w (Fin.last (n + 1)))) (hML : 0 ≤ ML)
    (hG : Curved MG (fun x => Tr x * L (x / (1 + z)) / x) (fw 0) (fw (Fin.last (m + 1)))) (hMG : 0 ≤ MG)
    (hK : ∀ x ∈ Icc (fw 0) (fw (Fin.last (m + 1))), |Tr x / x| ≤ K) :
    |obs_flux_ssp w (fun j => L (w j)) fw (fun i => Tr (fw i)) z - Band.flux L Tr (fw 0) (fw (Fin.last (m + 1))) z| ≤
      (MG * δf ^ 2 / 12 + K * (ML / 8 * δw ^ 2)) * (fw (Fin.last (m + 1)) - fw 0) := by
  have h1 : 0 < 1 + z := by linarith [hc.2.2.1]
  have hq := C166_trapz hf hG hMG hgf
  have hK0 : 0 ≤ K := (abs_nonneg _).trans (hK (fw 0) ⟨le_rfl, hf (Fin.zero_le _)⟩)
  have hm : ∀ i, fw i ∈ Icc (fw 0) (fw (Fin.last (m + 1))) := fun i => ⟨hf (Fin.zero_le _), hf (Fin.le_last _)⟩
  have hs : Curved (ML * (1 + z)⁻¹ ^ 2) (fun x => L ((1 + z)⁻¹ * x)) (w 0 * (1 + z)) (w (Fin.last (n + 1)) * (1 + z)) := by
    refine Curved.scale (inv_pos.mpr h1) ?_
    have hy : ∀ y, (1 + z)⁻¹ * (y * (1 + z)) = y := fun y => by field_simp
    rw [hy, hy]; exact hL
  have hd := trapz_diff (ω := K * (ML / 8 * δw ^ 2)) (y := fun i => Tr (fw i) * interpLR (fw i) (fun j => w j * (1 + z)) (fun j => L (w j)) 0 0 / fw i)
    (y' := fun i => Tr (fw i) * L (fw i / (1 + z)) / fw i) hf (fun i => by
      have q := hc.mem (hm i)
      have q0 : w 0 * (1 + z) ≤ fw i := (le_div_iff₀ h1).mp q.1
      have q1 : fw i ≤ w (Fin.last (n + 1)) * (1 + z) := (div_le_iff₀ h1).mp q.2
      have hi := C166_interp (δ := δw * (1 + z)) hw hs (by positivity) (fun j => by nlinarith [hgw j]) ⟨q0, q1⟩
      have e : interpLR (fw i) (fun j => w j * (1 + z)) (fun j => L (w j)) 0 0 = interp (fw i) (fun j => w j * (1 + z)) (fun j => L ((1 + z)⁻¹ * (w j * (1 + z)))) := by
        have hh : (fun j => L ((1 + z)⁻¹ * (w j * (1 + z)))) = fun j => L (w j) := by
          funext j; congr 1; field_simp
        rw [hh, interp_of_mem (xp := fun j => w j * (1 + z)) q0 q1]
        exact (interp_of_mem (xp := fun j => w j * (1 + z)) q0 q1).symm
      rw [← e, show ML * (1 + z)⁻¹ ^ 2 / 8 * (δw * (1 + z)) ^ 2 = ML / 8 * δw ^ 2 by field_simp, show (1 + z)⁻¹ * fw i = fw i / (1 + z) by field_simp] at hi
      have e2 : ∀ T l l' x : ℝ, T * l / x - T * l' / x = T / x * (l - l') := by intros; ring
      rw [e2, abs_mul]
      exact mul_le_mul (hK _ (hm i)) hi (abs_nonneg _) hK0)
  unfold obs_flux_ssp Band.flux
  have := (abs_sub_le _ _ _).trans (add_le_add hd hq)
  refine this.trans_eq ?_
  ring

lemma log_ratio_err {F F' : ℝ} (hF : F ≠ 0) {e : ℝ} (he : |F' - F| ≤ e) (h2 : e ≤ |F| / 2) : F' ≠ 0 ∧ |Real.log F' - Real.log F| ≤ 2 / |F| * e := by
  have hp : 0 < |F| := abs_pos.mpr hF
  have hr : |F' / F - 1| ≤ e / |F| := by
    rw [show F' / F - 1 = (F' - F) / F by field_simp, abs_div]
    exact div_le_div_of_nonneg_right he hp.le
  have hh : e / |F| ≤ 1 / 2 := by rw [div_le_iff₀ hp]; linarith
  obtain ⟨r0, r1⟩ := abs_le.mp (hr.trans hh)
  have hq : 0 < F' / F := by linarith
  have hF' : F' ≠ 0 := by rintro rfl; simp at hq
  refine ⟨hF', ?_⟩
  rw [← Real.log_div hF' hF]
  have u1 := Real.log_le_sub_one_of_pos hq
  have u2 := Real.one_sub_inv_le_log_of_pos hq
  have u3 : (F' / F)⁻¹ ≤ 2 := by
    rw [inv_le_comm₀ hq (by norm_num)]; linarith
  have u4 : 1 - (F' / F)⁻¹ = (F' / F - 1) * (F' / F)⁻¹ := by rw [sub_mul, mul_inv_cancel₀ hq.ne', one_mul]
  have e3 : 2 / |F| * e = 2 * (e / |F|) := by ring
  rw [e3, abs_le]
  have ha := abs_le.mp hr
  have hi : 0 < (F' / F)⁻¹ := inv_pos.mpr hq
  constructor
  · rw [u4] at u2
    rcases le_total 0 (F' / F - 1) with h | h
    · nlinarith [mul_nonneg h hi.le]
    · nlinarith
  · nlinarith [ha.1, ha.2, abs_nonneg (F' / F - 1)]

/-- the fluxes, with one constant -/
lemma flux_order (hc : Covered a b c d z) (hL : ContDiffOn ℝ 2 L (Icc c d)) (hT : ContDiffOn ℝ 2 Tr (Icc a b)) :
    ∃ C, 0 ≤ C ∧ ∀ [Dtype], ∀ δ, ∀ x ∈ Band.Fine c d δ, ∀ f ∈ Band.Fine a b δ, (Resolved fun j => x.2 j * (1 + z)) →
      |obs_flux_ssp x.2 (fun j => L (x.2 j)) f.2 (fun i => Tr (f.2 i)) z - Band.flux L Tr a b z| ≤ C * δ ^ 2 := by
  have hab := hc.2.1
  obtain ⟨ML, hML, cL⟩ := Curved.of_contDiff hL
  obtain ⟨MG, hMG, cG⟩ := Curved.of_contDiff (f := fun x => Tr x * L (x / (1 + z)) / x) (a := a) (b := b) (by
    refine (hT.mul (hL.comp (contDiff_id.div_const _).contDiffOn fun x hx => hc.mem hx)).div contDiffOn_id fun x hx => ?_
    exact (lt_of_lt_of_le hc.1 hx.1).ne')
  obtain ⟨K, hK⟩ : ∃ K, ∀ x ∈ Icc a b, |Tr x / x| ≤ K := by
    obtain ⟨y, _, h⟩ := isCompact_Icc.exists_isMaxOn (nonempty_Icc.mpr hab)
      ((hT.continuousOn.div continuousOn_id fun x hx => (lt_of_lt_of_le hc.1 hx.1).ne').abs)
    exact ⟨_, fun x hx => h hx⟩
  have hK0 : 0 ≤ K := (abs_nonneg _).trans (hK a ⟨le_rfl, hab⟩)
  refine ⟨(MG / 12 + K * (ML / 8)) * (b - a), mul_nonneg (by positivity) (sub_nonneg.mpr hab), fun [Dtype] δ x hx f hf hr => ?_⟩
  obtain ⟨w1, w2, w3, w4⟩ := hx
  obtain ⟨f1, f2, f3, f4⟩ := hf
  have := C166_flux (L := L) (Tr := Tr) (K := K) (z := z) (ML := ML) (MG := MG) hr w4 f4 f1 (by rw [w2, w3, f2, f3]; exact hc) (by rw [w2, w3]; exact cL) hML
    (by rw [f2, f3]; exact cG) hMG (by rw [f2, f3]; exact hK)
  rw [f2, f3] at this
  refine this.trans_eq (by ring)

lemma ab_order (ha : 0 < a) (hab : a ≤ b) (hT : ContDiffOn ℝ 2 Tr (Icc a b)) :
    ∃ C, 0 ≤ C ∧ ∀ δ, ∀ f ∈ Band.Fine a b δ, |flux_ab0_at_10pc f.2 (fun i => Tr (f.2 i)) - Band.ab Tr a b| ≤ C * δ ^ 2 := by
  obtain ⟨M, hM, cM⟩ := Curved.of_contDiff (f := fun x => Tr x * AB0 / x) (a := a) (b := b)
    ((hT.mul contDiffOn_const).div contDiffOn_id fun x hx => (lt_of_lt_of_le ha hx.1).ne')
  refine ⟨M / 12 * (b - a), mul_nonneg (by positivity) (sub_nonneg.mpr hab), fun δ f hf => ?_⟩
  obtain ⟨f1, f2, f3, f4⟩ := hf
  have := C166_trapz (f := fun x => Tr x * AB0 / x) f1 (by rw [f2, f3]; exact cM) hM f4
  rw [f2, f3] at this
  refine le_trans ?_ (this.trans_eq (by ring))
  exact le_of_eq rfl

lemma mag_order (hc : Covered a b c d z) (hL : ContDiffOn ℝ 2 L (Icc c d)) (hT : ContDiffOn ℝ 2 Tr (Icc a b))
    (hF : Band.flux L Tr a b z ≠ 0) (hA : Band.ab Tr a b ≠ 0) :
    ∃ C δ₀, 0 < δ₀ ∧ ∀ [Dtype], ∀ δ ≤ δ₀, ∀ x ∈ Band.Fine c d δ, ∀ f ∈ Band.Fine a b δ, (Resolved fun j => x.2 j * (1 + z)) →
      |calc_obs_mag_no_dimming x.2 (fun j => L (x.2 j)) f.2 (fun i => Tr (f.2 i)) z - Band.mag L Tr a b z| ≤ C * δ ^ 2 := by
  obtain ⟨C1, p1, h1⟩ := flux_order hc hL hT
  obtain ⟨C2, p2, h2⟩ := ab_order hc.1 hc.2.1 hT
  have hFp := abs_pos.mpr hF
  have hAp := abs_pos.mpr hA
  refine ⟨2.5 / Real.log 10 * (2 / |Band.flux L Tr a b z| * C1 + 2 / |Band.ab Tr a b| * C2),
    min 1 (min (|Band.flux L Tr a b z| / (2 * (C1 + 1))) (|Band.ab Tr a b| / (2 * (C2 + 1)))), ?_, fun [Dtype] δ hδ x hx f hf hr => ?_⟩
  · have : 0 < |Band.flux L Tr a b z| / (2 * (C1 + 1)) := by positivity
    have : 0 < |Band.ab Tr a b| / (2 * (C2 + 1)) := by positivity
    positivity
  have hδ0 : 0 ≤ δ := by
    have := hf.2.2.2 0
    have h3 := hf.1 (Fin.castSucc_lt_succ (i := (0 : Fin (f.1 + 1)))).le
    linarith
  have hd1 : δ ≤ 1 := hδ.trans (min_le_left _ _)
  have small : ∀ C X : ℝ, 0 ≤ C → 0 < X → δ ≤ X / (2 * (C + 1)) → C * δ ^ 2 ≤ X / 2 := by
    intro C X hC hX h
    rw [le_div_iff₀ (by positivity)] at h
    nlinarith [mul_nonneg hC hδ0]
  obtain ⟨n1, e1⟩ := log_ratio_err hF (h1 δ x hx f hf hr) (small _ _ p1 hFp (hδ.trans ((min_le_right _ _).trans (min_le_left _ _))))
  obtain ⟨n2, e2⟩ := log_ratio_err hA (h2 δ f hf) (small _ _ p2 hAp (hδ.trans ((min_le_right _ _).trans (min_le_right _ _))))
  unfold calc_obs_mag_no_dimming Band.mag
  simp only [Jnp.log10, Real.logb]
  rw [Real.log_div n1 n2, Real.log_div hF hA]
  have hl : 0 < Real.log 10 := Real.log_pos (by norm_num)
  generalize Real.log (obs_flux_ssp x.2 (fun j => L (x.2 j)) f.2 (fun i => Tr (f.2 i)) z) = p at *
  generalize Real.log (flux_ab0_at_10pc f.2 (fun i => Tr (f.2 i))) = q at *
  generalize Real.log (Band.flux L Tr a b z) = p' at *
  generalize Real.log (Band.ab Tr a b) = q' at *
  have e : -2.5 * ((p - q) / Real.log 10) - -2.5 * ((p' - q') / Real.log 10) = 2.5 / Real.log 10 * ((q - q') - (p - p')) := by field_simp; ring
  rw [e, abs_mul, abs_of_pos (by positivity), mul_assoc]
  refine mul_le_mul_of_nonneg_left ((abs_sub _ _).trans ?_) (by positivity)
  linarith

/-- C166: **observed magnitudes** of a spectrum and a transmission curve with continuous second derivatives are second-order accurate in the gaps of
the wavelength grids. -/
theorem C166_obs_mag (hc : Covered a b c d z) (hL : ContDiffOn ℝ 2 L (Icc c d)) (hT : ContDiffOn ℝ 2 Tr (Icc a b))
    (hF : Band.flux L Tr a b z ≠ 0) (hA : Band.ab Tr a b ≠ 0) (Om0 w0 wa h : ℝ) :
    ∃ C δ₀, 0 < δ₀ ∧ ∀ [Dtype], ∀ δ ≤ δ₀, ∀ x ∈ Band.Fine c d δ, ∀ f ∈ Band.Fine a b δ, (Resolved fun j => x.2 j * (1 + z)) →
      |calc_obs_mag x.2 (fun j => L (x.2 j)) f.2 (fun i => Tr (f.2 i)) z Om0 w0 wa h -
        (Band.mag L Tr a b z + (Dsps.FlatWcdm.distance_modulus_to_z z Om0 w0 wa h - 2.5 * Real.logb 10 (1 + z)))| ≤ C * δ ^ 2 := by
  obtain ⟨C, δ₀, hδ₀, h⟩ := mag_order hc hL hT hF hA
  refine ⟨C, δ₀, hδ₀, fun [Dtype] δ hδ x hx f hf hr => ?_⟩
  have := h δ hδ x hx f hf hr
  unfold calc_obs_mag cosmological_dimming
  unfold calc_obs_mag_no_dimming at this
  simp only [Jnp.log10] at this ⊢
  rwa [show ∀ p q r : ℝ, p + q - (r + q) = p - r by intros; ring]

/-- C166: **rest-frame magnitudes** -/
theorem C166_rest_mag (hc : Covered a b c d 0) (hL : ContDiffOn ℝ 2 L (Icc c d)) (hT : ContDiffOn ℝ 2 Tr (Icc a b))
    (hF : Band.flux L Tr a b 0 ≠ 0) (hA : Band.ab Tr a b ≠ 0) :
    ∃ C δ₀, 0 < δ₀ ∧ ∀ [Dtype], ∀ δ ≤ δ₀, ∀ x ∈ Band.Fine c d δ, ∀ f ∈ Band.Fine a b δ, Resolved x.2 →
      |calc_rest_mag x.2 (fun j => L (x.2 j)) f.2 (fun i => Tr (f.2 i)) - Band.mag L Tr a b 0| ≤ C * δ ^ 2 := by
  obtain ⟨C, δ₀, hδ₀, h⟩ := mag_order hc hL hT hF hA
  refine ⟨C, δ₀, hδ₀, fun [Dtype] δ hδ x hx f hf hr => ?_⟩
  have := h δ hδ x hx f hf (by simpa using hr)
  unfold calc_rest_mag calc_rest_flux
  unfold calc_obs_mag_no_dimming at this
  simp only at this ⊢
  rwa [← obs_eq_rest_at_zero]

/-! ## mass formed and age weights -/

/-- C166: **mass formed between two table times**: within `M δ² / 12` per Gyr (times 10⁹ yr/Gyr) of the integral of the star formation history. -/
theorem C166_mass_between {t : Fin (n + 2) → ℝ} {δ : ℝ} (ht : Monotone t) (hS : Curved M S (t 0) (t (Fin.last (n + 1)))) (hM : 0 ≤ M)
    (hδ : ∀ i : Fin (n + 1), t i.succ - t i.castSucc ≤ δ) {j k : Fin (n + 2)} (hjk : j ≤ k) :
    |(cumulative_mstar_formed t (fun i => S (t i)) k - cumulative_mstar_formed t (fun i => S (t i)) j) - 1e9 * ∫ x in t j..t k, S x| ≤
      1e9 * (M * δ ^ 2 / 12 * (t k - t j)) := by
  have hm : ∀ i, t i ∈ Icc (t 0) (t (Fin.last (n + 1))) := fun i => ⟨ht (Fin.zero_le _), ht (Fin.le_last _)⟩
  have hint : ∀ i l, IntervalIntegrable S MeasureTheory.volume (t i) (t l) := fun i l => (hS.cont.mono (uIcc_subset_Icc (hm i) (hm l))).intervalIntegrable
  set E : Fin (n + 2) → ℝ := fun i => cumulative_mstar_formed t (fun i => S (t i)) i - 1e9 * ∫ x in t 0..t i, S x with hE
  have step : ∀ i : Fin (n + 1), |E i.succ - E i.castSucc| ≤ 1e9 * (M * δ ^ 2 / 12) * (t i.succ - t i.castSucc) := by
    intro i
    have hle := ht (Fin.castSucc_lt_succ (i := i)).le
    have hc := (hS.sub (c := t i.castSucc) (d := t i.succ) (hm _).1 (hm _).2).cell hle
    have ha := intervalIntegral.integral_add_adjacent_intervals (hint 0 i.castSucc) (hint i.castSucc i.succ)
    have e : E i.succ - E i.castSucc = 1e9 * (trapezoidArea (t i.castSucc) (t i.succ) (S (t i.castSucc)) (S (t i.succ)) - ∫ x in t i.castSucc..t i.succ, S x) := by
      simp only [hE]
      rw [(C12_mstar_formula t _).2, ← ha]
      ring
    rw [e, abs_mul, abs_of_pos (by norm_num), mul_assoc]
    refine mul_le_mul_of_nonneg_left (hc.trans ?_) (by norm_num)
    have h2 := sub_nonneg.mpr hle
    have h3 : (t i.succ - t i.castSucc) ^ 2 ≤ δ ^ 2 := pow_le_pow_left₀ h2 (hδ i) 2
    have := mul_le_mul_of_nonneg_left h3 (mul_nonneg hM h2)
    nlinarith
  have m1 : Monotone fun i => 1e9 * (M * δ ^ 2 / 12) * t i - E i := Fin.monotone_iff_le_succ.mpr fun i => by
    have := (abs_le.mp (step i)).2
    linarith
  have m2 : Monotone fun i => 1e9 * (M * δ ^ 2 / 12) * t i + E i := Fin.monotone_iff_le_succ.mpr fun i => by
    have := (abs_le.mp (step i)).1
    linarith
  have q1 := m1 hjk
  have q2 := m2 hjk
  simp only at q1 q2
  have ha := intervalIntegral.integral_add_adjacent_intervals (hint 0 j) (hint j k)
  have e : (cumulative_mstar_formed t (fun i => S (t i)) k - cumulative_mstar_formed t (fun i => S (t i)) j) - 1e9 * ∫ x in t j..t k, S x = E k - E j := by
    simp only [hE]; rw [← ha]; ring
  rw [e, abs_le]
  constructor <;> linarith

/-- **Specification.** mass formed by time `τ`, in Msun, by a star formation history tabulated from time `t₀` on: before `t₀` the package takes the
star formation rate to rise in a straight line from 1e-14 Msun/yr at 0.001 Gyr, and attributes the mass of that time to `t₀` -/
noncomputable def Sfh.massFrom (S : ℝ → ℝ) (t₀ τ : ℝ) : ℝ := 1e9 * ((t₀ - 0.001) * (1e-14 + S t₀) / 2 + ∫ x in t₀..max t₀ τ, S x)

/-- share of the mass born between the birth times of ages `10^lo` and `10^hi` in that born between those of `10^first` and `10^last` -/
noncomputable def Sfh.shareFrom (S : ℝ → ℝ) (t₀ t_obs lo hi first last : ℝ) : ℝ :=
  (Sfh.massFrom S t₀ (birthTime t_obs lo) - Sfh.massFrom S t₀ (birthTime t_obs hi)) /
  (Sfh.massFrom S t₀ (birthTime t_obs first) - Sfh.massFrom S t₀ (birthTime t_obs last))

/-- tables from `t₀` to `T` with no gap wider than `δ`, and none narrower than `jnp.interp` resolves -/
def Sfh.Table [Dtype] (t₀ T δ : ℝ) : Set (Σ n : ℕ, Fin (n + 2) → ℝ) :=
  {t | StrictMono t.2 ∧ t.2 0 = t₀ ∧ t.2 (Fin.last (t.1 + 1)) = T ∧ (∀ i : Fin (t.1 + 1), t.2 i.succ - t.2 i.castSucc ≤ δ) ∧ Resolved fun i => log10 (t.2 i)}

section mass
variable {t₀ T sfr_min : ℝ}

lemma massFrom_of_ge {τ : ℝ} (h : t₀ ≤ τ) : Sfh.massFrom S t₀ τ = 1e9 * ((t₀ - 0.001) * (1e-14 + S t₀) / 2 + ∫ x in t₀..τ, S x) := by
  unfold Sfh.massFrom; rw [max_eq_right h]

lemma massFrom_of_le {τ : ℝ} (h : τ ≤ t₀) : Sfh.massFrom S t₀ τ = 1e9 * ((t₀ - 0.001) * (1e-14 + S t₀) / 2) := by
  unfold Sfh.massFrom; rw [max_eq_left h]; simp

lemma massFrom_deriv (hS : ContinuousOn S (Icc t₀ T)) {x : ℝ} (hx : x ∈ Ioo t₀ T) : HasDerivAt (Sfh.massFrom S t₀) (1e9 * S x) x := by
  have hd : HasDerivAt (fun u => ∫ y in t₀..u, S y) (S x) x := by
    refine intervalIntegral.integral_hasDerivAt_right ?_ ?_ ?_
    · exact (hS.mono (uIcc_subset_Icc ⟨le_rfl, (hx.1.trans hx.2).le⟩ (Ioo_subset_Icc_self hx))).intervalIntegrable
    · exact (hS.mono Ioo_subset_Icc_self).stronglyMeasurableAtFilter isOpen_Ioo x hx
    · exact hS.continuousAt (Icc_mem_nhds hx.1 hx.2)
  refine ((hd.const_add ((t₀ - 0.001) * (1e-14 + S t₀) / 2)).const_mul 1e9).congr_of_eventuallyEq ?_
  filter_upwards [eventually_gt_nhds hx.1] with u hu
  exact massFrom_of_ge hu.le

lemma massFrom_cont (hS : ContinuousOn S (Icc t₀ T)) (h : t₀ ≤ T) : ContinuousOn (Sfh.massFrom S t₀) (Icc t₀ T) := by
  have hi : ContinuousOn (fun u => ∫ y in t₀..u, S y) (Icc t₀ T) := by
    have := intervalIntegral.continuousOn_primitive_interval (μ := MeasureTheory.volume) (f := S) (a := t₀) (b := T) (by
      rw [uIcc_of_le h]
      exact hS.integrableOn_Icc)
    rwa [uIcc_of_le h] at this
  refine ((hi.const_add ((t₀ - 0.001) * (1e-14 + S t₀) / 2)).const_mul 1e9).congr fun u hu => ?_
  exact massFrom_of_ge hu.1

lemma massFrom_mono (hS : ContinuousOn S (Icc t₀ T)) (hp : ∀ x ∈ Icc t₀ T, 0 ≤ S x) {x y : ℝ} (hxy : x ≤ y) (hy : y ≤ T) :
    Sfh.massFrom S t₀ x ≤ Sfh.massFrom S t₀ y := by
  rcases le_total y t₀ with h | h
  · rw [massFrom_of_le h, massFrom_of_le (hxy.trans h)]
  · unfold Sfh.massFrom
    have hm : max t₀ x ∈ Icc t₀ T := ⟨le_max_left _ _, max_le (h.trans hy) (hxy.trans hy)⟩
    have hm' : max t₀ y ∈ Icc t₀ T := ⟨le_max_left _ _, max_le (h.trans hy) hy⟩
    have h0 : t₀ ∈ Icc t₀ T := ⟨le_rfl, h.trans hy⟩
    have hle : max t₀ x ≤ max t₀ y := max_le_max le_rfl hxy
    rw [← intervalIntegral.integral_add_adjacent_intervals (hS.mono (uIcc_subset_Icc h0 hm)).intervalIntegrable
      (hS.mono (uIcc_subset_Icc hm hm')).intervalIntegrable]
    have := intervalIntegral.integral_nonneg (μ := MeasureTheory.volume) hle fun u hu => hp u ⟨hm.1.trans hu.1, hu.2.trans hm'.2⟩
    linarith

/-- the mass formed, in the logarithms the package interpolates -/
lemma logmass_curved (h0 : 0.001 < t₀) (hT : t₀ < T) (hS : ContDiffOn ℝ 2 S (Icc t₀ T)) (hp : ∀ x ∈ Icc t₀ T, 0 ≤ S x) :
    ∃ K, 0 ≤ K ∧ Curved K (fun u => log10 (Sfh.massFrom S t₀ (exp10 u))) (log10 t₀) (log10 T) := by
  have hp0 : 0 < t₀ := lt_trans (by norm_num) h0
  have hl : 0 < Real.log 10 := Real.log_pos (by norm_num)
  have hS1 : ContDiffOn ℝ 1 (derivWithin S (Icc t₀ T)) (Icc t₀ T) := hS.derivWithin (uniqueDiffOn_Icc hT) (by norm_num)
  set S' := derivWithin S (Icc t₀ T) with hS'
  obtain ⟨y, hy, hB⟩ := isCompact_Icc.exists_isMaxOn (nonempty_Icc.mpr hT.le) hS.continuousOn.abs
  obtain ⟨y', hy', hB'⟩ := isCompact_Icc.exists_isMaxOn (nonempty_Icc.mpr hT.le) hS1.continuousOn.abs
  set B := |S y|
  set B' := |S' y'|
  have b : ∀ x ∈ Icc t₀ T, |S x| ≤ B := fun x hx => hB hx
  have b' : ∀ x ∈ Icc t₀ T, |S' x| ≤ B' := fun x hx => hB' hx
  set A₀ := Sfh.massFrom S t₀ t₀ with hA0
  have hA0p : 0 < A₀ := by
    have := hp t₀ ⟨le_rfl, hT.le⟩
    have := sub_pos.mpr h0
    rw [hA0, massFrom_of_le le_rfl]; positivity
  have hA : ∀ x ∈ Icc t₀ T, A₀ ≤ Sfh.massFrom S t₀ x := fun x hx => massFrom_mono hS.continuousOn hp hx.1 hx.2
  have hmem : ∀ u ∈ Icc (log10 t₀) (log10 T), exp10 u ∈ Icc t₀ T := fun u hu =>
    ⟨by rw [← exp10_log10 hp0]; exact exp10_strictMono.monotone hu.1, by rw [← exp10_log10 (hp0.trans hT)]; exact exp10_strictMono.monotone hu.2⟩
  have hmem' : ∀ u ∈ Ioo (log10 t₀) (log10 T), exp10 u ∈ Ioo t₀ T := fun u hu =>
    ⟨by rw [← exp10_log10 hp0]; exact exp10_strictMono hu.1, by rw [← exp10_log10 (hp0.trans hT)]; exact exp10_strictMono hu.2⟩
  have hB0 : 0 ≤ B := abs_nonneg _
  have hB0' : 0 ≤ B' := abs_nonneg _
  have hTp : 0 < T := hp0.trans hT
  have hE : ∀ u, HasDerivAt (fun u => exp10 u) (exp10 u * Real.log 10) u := fun u => by
    have := (hasDerivAt_id u).const_rpow (show (0:ℝ) < 10 by norm_num)
    refine this.congr_deriv ?_
    simp [exp10]; ring
  refine ⟨1e9 * (T * Real.log 10) * ((B' * T + B) / A₀ + B * T * (1e9 * B) / A₀ ^ 2), by positivity, ?_, fun u => 1e9 * (S (exp10 u) * exp10 u / Sfh.massFrom S t₀ (exp10 u)),
    fun u => 1e9 * (exp10 u * Real.log 10) * ((S' (exp10 u) * exp10 u + S (exp10 u)) / Sfh.massFrom S t₀ (exp10 u) -
      S (exp10 u) * exp10 u * (1e9 * S (exp10 u)) / Sfh.massFrom S t₀ (exp10 u) ^ 2), fun u hu => ⟨?_, ?_, ?_⟩⟩
  · have hc := (massFrom_cont hS.continuousOn hT.le).comp (f := fun u => exp10 u) (t := Icc t₀ T) (s := Icc (log10 t₀) (log10 T))
      (fun u _ => (hE u).continuousAt.continuousWithinAt) hmem
    exact (hc.log fun u hu => (hA0p.trans_le (hA _ (hmem u hu))).ne').div_const _
  · have hx := hmem' u hu
    have hne := (hA0p.trans_le (hA _ (Ioo_subset_Icc_self hx))).ne'
    have hd := (massFrom_deriv hS.continuousOn hx).comp u (hE u)
    refine ((hd.log hne).div_const (Real.log 10)).congr_deriv ?_
    simp only [Function.comp]
    field_simp
  · have hx := hmem' u hu
    have hne := (hA0p.trans_le (hA _ (Ioo_subset_Icc_self hx))).ne'
    have hdS : HasDerivAt S (S' (exp10 u)) (exp10 u) :=
      ((hS.differentiableOn (by norm_num)) _ (Ioo_subset_Icc_self hx)).hasDerivWithinAt.hasDerivAt (Icc_mem_nhds hx.1 hx.2)
    have hd := (massFrom_deriv hS.continuousOn hx).comp u (hE u)
    have hs := hdS.comp u (hE u)
    refine (((hs.mul (hE u)).div hd hne).const_mul 1e9).congr_deriv ?_
    simp only [Function.comp, Pi.mul_apply]
    field_simp
  · have hx := Ioo_subset_Icc_self (hmem' u hu)
    have hAx := hA _ hx
    have hpx := hp0.trans_le hx.1
    have hAp := hA0p.trans_le hAx
    rw [abs_mul, abs_of_pos (by positivity)]
    have k1 : |(S' (exp10 u) * exp10 u + S (exp10 u)) / Sfh.massFrom S t₀ (exp10 u)| ≤ (B' * T + B) / A₀ := by
      rw [abs_div, abs_of_pos hAp]
      refine div_le_div₀ (by positivity) ((abs_add_le _ _).trans (add_le_add ?_ (b _ hx))) hA0p hAx
      rw [abs_mul, abs_of_pos hpx]
      exact mul_le_mul (b' _ hx) hx.2 hpx.le hB0'
    have k2 : |S (exp10 u) * exp10 u * (1e9 * S (exp10 u)) / Sfh.massFrom S t₀ (exp10 u) ^ 2| ≤ B * T * (1e9 * B) / A₀ ^ 2 := by
      rw [abs_div, abs_of_pos (by positivity : 0 < Sfh.massFrom S t₀ (exp10 u) ^ 2), abs_mul, abs_mul, abs_mul, abs_of_pos hpx, abs_of_pos (by norm_num : (0:ℝ) < 1e9)]
      refine div_le_div₀ (by positivity) ?_ (by positivity) (pow_le_pow_left₀ hA0p.le hAx 2)
      exact mul_le_mul (mul_le_mul (b _ hx) hx.2 hpx.le hB0) (mul_le_mul_of_nonneg_left (b _ hx) (by norm_num)) (by positivity) (by positivity)
    refine mul_le_mul ?_ ((abs_sub _ _).trans (add_le_add k1 k2)) (abs_nonneg _) (by positivity)
    have := mul_le_mul_of_nonneg_right hx.2 hl.le
    linarith

/-- interpolating two close tables -/
lemma interp_close [Dtype] {w u v : Fin (n + 2) → ℝ} (hw : Monotone w) {e x : ℝ} (h : ∀ i, |u i - v i| ≤ e) : |interp x w u - interp x w v| ≤ e := by
  have hl := interp_linear hw x 1 (-1) u v
  have hb := interp_bounds (fp := fun i => 1 * u i + -1 * v i) hw x (-e) e (fun i => by have := abs_le.mp (h i); linarith) (fun i => by have := abs_le.mp (h i); linarith)
  rw [hl] at hb
  rw [abs_le]
  constructor <;> linarith [hb.1, hb.2]

lemma log10_gap {x y : ℝ} (hx : 0 < x) (hxy : x ≤ y) : log10 y - log10 x ≤ (y - x) / (x * Real.log 10) := by
  have hl : 0 < Real.log 10 := Real.log_pos (by norm_num)
  have h := Real.log_le_sub_one_of_pos (div_pos (hx.trans_le hxy) hx)
  rw [Real.log_div (hx.trans_le hxy).ne' hx.ne'] at h
  simp only [Jnp.log10, Real.logb]
  rw [← sub_div, div_le_div_iff₀ hl (by positivity)]
  have e : y / x - 1 = (y - x) / x := by field_simp
  rw [e, le_div_iff₀ hx] at h
  nlinarith

/-- the mass formed is second-order accurate, with one constant -/
lemma mass_order (hs : 0 < sfr_min) (h0 : 0.001 < t₀) (hT : t₀ < T) (hS : ContDiffOn ℝ 2 S (Icc t₀ T)) (hp : ∀ x ∈ Icc t₀ T, sfr_min ≤ S x) :
    ∃ C δ₀, 0 ≤ C ∧ 0 < δ₀ ∧ ∀ [Dtype], ∀ δ ≤ δ₀, ∀ t ∈ Sfh.Table t₀ T δ, ∀ τ, 0 < τ → τ ≤ T →
      |massFormed t.2 (fun i => S (t.2 i)) sfr_min τ - Sfh.massFrom S t₀ τ| ≤ C * δ ^ 2 := by
  have hp0 : 0 < t₀ := lt_trans (by norm_num) h0
  have hl : 0 < Real.log 10 := Real.log_pos (by norm_num)
  have hpos : ∀ x ∈ Icc t₀ T, 0 ≤ S x := fun x hx => hs.le.trans (hp x hx)
  obtain ⟨M, hM, cS⟩ := Curved.of_contDiff hS
  obtain ⟨K, hK, cN⟩ := logmass_curved h0 hT hS hpos
  set A₀ := Sfh.massFrom S t₀ t₀ with hA0
  have hA0p : 0 < A₀ := by
    have := hpos t₀ ⟨le_rfl, hT.le⟩
    have := sub_pos.mpr h0
    rw [hA0, massFrom_of_le le_rfl]; positivity
  set A₁ := Sfh.massFrom S t₀ T with hA1
  have hA : ∀ x ∈ Icc t₀ T, A₀ ≤ Sfh.massFrom S t₀ x := fun x hx => massFrom_mono hS.continuousOn hpos hx.1 hx.2
  have hA' : ∀ x ∈ Icc t₀ T, Sfh.massFrom S t₀ x ≤ A₁ := fun x hx => massFrom_mono hS.continuousOn hpos hx.2 le_rfl
  have hA1p : 0 < A₁ := hA0p.trans_le (hA' t₀ ⟨le_rfl, hT.le⟩)
  set C1 := 1e9 * (M / 12 * (T - t₀)) with hC1
  have hTt : 0 < T - t₀ := sub_pos.mpr hT
  have hC1p : 0 ≤ C1 := by positivity
  set C3 := 2 / A₀ * C1 / Real.log 10 + K / 8 * (1 / (t₀ * Real.log 10)) ^ 2 with hC3
  have hC3p : 0 ≤ C3 := by positivity
  refine ⟨A₁ * (2 * (Real.log 10 * C3)), min 1 (min (A₀ / (2 * (C1 + 1))) (1 / (Real.log 10 * (C3 + 1)))), by positivity, by positivity, fun [Dtype] δ hδ t ht τ hτ0 hτ => ?_⟩
  obtain ⟨n, t⟩ := t
  obtain ⟨hm, ht0, htT, hg, hr⟩ := ht
  simp only at hm ht0 htT hg hr ⊢
  have h0' : 0.001 < t 0 := ht0 ▸ h0
  have hδ0 : 0 ≤ δ := by
    have := hg 0
    have h3 := hm (Fin.castSucc_lt_succ (i := (0 : Fin (n + 1))))
    linarith
  have hd1 : δ ≤ 1 := hδ.trans (min_le_left _ _)
  have hd2 : C1 * δ ^ 2 ≤ A₀ / 2 := by
    have := hδ.trans ((min_le_right _ _).trans (min_le_left _ _))
    rw [le_div_iff₀ (by positivity)] at this
    nlinarith [mul_nonneg hC1p hδ0]
  have hd3 : Real.log 10 * C3 * δ ^ 2 ≤ 1 := by
    have := hδ.trans ((min_le_right _ _).trans (min_le_right _ _))
    rw [le_div_iff₀ (by positivity)] at this
    have q1 : 0 ≤ Real.log 10 * C3 := by positivity
    nlinarith [mul_nonneg q1 hδ0, mul_nonneg hl.le hδ0]
  have hmem : ∀ i, t i ∈ Icc t₀ T := fun i => ⟨ht0 ▸ hm.monotone (Fin.zero_le i), htT ▸ hm.monotone (Fin.le_last i)⟩
  have hfl : (fun j => max sfr_min (S (t j))) = fun j => S (t j) := by funext j; exact max_eq_right (hp _ (hmem j))
  have hcum0 : cumulative_mstar_formed t (fun j => S (t j)) 0 = 1e9 * ((t₀ - 0.001) * (1e-14 + S t₀) / 2) := by
    rw [(C12_mstar_formula t _).1, ht0]; rfl
  have hnode : ∀ k, |cumulative_mstar_formed t (fun j => S (t j)) k - Sfh.massFrom S t₀ (t k)| ≤ C1 * δ ^ 2 := by
    intro k
    have h1 := C166_mass_between (S := S) hm.monotone (by rw [ht0, htT]; exact cS) hM hg (Fin.zero_le k)
    rw [hcum0, ht0] at h1
    rw [massFrom_of_ge (hmem k).1]
    have h2 : (1e9:ℝ) * (M * δ ^ 2 / 12 * (t k - t₀)) ≤ C1 * δ ^ 2 := by
      have := (hmem k).2
      have q : 0 ≤ M * δ ^ 2 := by positivity
      have : M * δ ^ 2 * (t k - t₀) ≤ M * δ ^ 2 * (T - t₀) := mul_le_mul_of_nonneg_left (by linarith) q
      rw [hC1]; linarith
    refine le_trans (le_of_eq ?_) (h1.trans h2)
    congr 1; ring
  rcases le_total τ t₀ with hc | hc
  · rw [massFormed_first hs hm h0' hτ0 (ht0 ▸ hc), hfl, hcum0, massFrom_of_le hc, sub_self, abs_zero]
    positivity
  have hτm : τ ∈ Icc t₀ T := ⟨hc, hτ⟩
  have hlog : ∀ k, |log10 (cumulative_mstar_formed t (fun j => S (t j)) k) - log10 (Sfh.massFrom S t₀ (t k))| ≤ 2 / A₀ * C1 / Real.log 10 * δ ^ 2 := by
    intro k
    have hak := hA _ (hmem k)
    have hap := hA0p.trans_le hak
    have h1 := (log_ratio_err hap.ne' (hnode k) (by rw [abs_of_pos hap]; linarith)).2
    rw [abs_of_pos hap] at h1
    simp only [Jnp.log10, Real.logb]
    rw [← sub_div, abs_div, abs_of_pos hl, div_le_iff₀ hl]
    refine h1.trans ?_
    rw [show 2 / A₀ * C1 / Real.log 10 * δ ^ 2 * Real.log 10 = 2 / A₀ * (C1 * δ ^ 2) by field_simp]
    exact mul_le_mul_of_nonneg_right (div_le_div_of_nonneg_left (by norm_num) hA0p hak) (by positivity)
  have hgl : ∀ i : Fin (n + 1), log10 (t i.succ) - log10 (t i.castSucc) ≤ 1 / (t₀ * Real.log 10) * δ := by
    intro i
    have hi := hmem i.castSucc
    have hle := (hm (Fin.castSucc_lt_succ (i := i))).le
    refine (log10_gap (hp0.trans_le hi.1) hle).trans ?_
    rw [one_div_mul_eq_div]
    exact div_le_div₀ hδ0 (hg i) (by positivity) (mul_le_mul_of_nonneg_right hi.1 hl.le)
  have hi := C166_interp (x := log10 τ) hr (by rw [ht0, htT]; exact cN) hK hgl
    ⟨by rw [ht0]; exact log10_le hp0 hc, by rw [htT]; exact log10_le hτ0 hτ⟩
  simp only [exp10_log10 hτ0] at hi
  have he : (fun i => log10 (Sfh.massFrom S t₀ (exp10 (log10 (t i))))) = fun i => log10 (Sfh.massFrom S t₀ (t i)) := by
    funext i; rw [exp10_log10 (hp0.trans_le (hmem i).1)]
  rw [he] at hi
  have hcl := interp_close (x := log10 τ) hr.strictMono.monotone hlog
  rw [massFormed_eq, calc_logsm_eq, hfl]
  have htot := (abs_sub_le _ _ _).trans (add_le_add hcl hi)
  have e3 : 2 / A₀ * C1 / Real.log 10 * δ ^ 2 + K / 8 * (1 / (t₀ * Real.log 10) * δ) ^ 2 = C3 * δ ^ 2 := by rw [hC3]; ring
  rw [e3] at htot
  generalize interp (log10 τ) (fun i => log10 (t i)) (fun i => log10 (cumulative_mstar_formed t (fun j => S (t j)) i)) = p at *
  have hAτ := hA0p.trans_le (hA _ hτm)
  have eq1 : exp10 p = Sfh.massFrom S t₀ τ * Real.exp (Real.log 10 * (p - log10 (Sfh.massFrom S t₀ τ))) := by
    rw [← exp10_log10 hAτ, log10_exp10]
    unfold Jnp.exp10
    rw [Real.rpow_def_of_pos (by norm_num), Real.rpow_def_of_pos (by norm_num), ← Real.exp_add]
    congr 1; ring
  have hx : |Real.log 10 * (p - log10 (Sfh.massFrom S t₀ τ))| ≤ Real.log 10 * C3 * δ ^ 2 := by
    rw [abs_mul, abs_of_pos hl, mul_assoc]
    exact mul_le_mul_of_nonneg_left htot hl.le
  have h4 := Real.abs_exp_sub_one_le (hx.trans hd3)
  rw [eq1, show ∀ A E : ℝ, A * E - A = A * (E - 1) by intros; ring, abs_mul, abs_of_pos hAτ]
  calc _ ≤ A₁ * (2 * (Real.log 10 * C3 * δ ^ 2)) := by
        refine mul_le_mul (hA' _ hτm) (h4.trans ?_) (abs_nonneg _) hA1p.le
        linarith
    _ = _ := by ring

/-- C166: **mass formed**: for a star formation history with continuous second derivative, sampled from `t₀` on and nowhere below the floor, the mass
formed by any time is second-order accurate in the gap of the table. -/
theorem C166_mass_formed (hs : 0 < sfr_min) (h0 : 0.001 < t₀) (hT : t₀ < T) (hS : ContDiffOn ℝ 2 S (Icc t₀ T)) (hp : ∀ x ∈ Icc t₀ T, sfr_min ≤ S x) :
    ∃ C δ₀, 0 < δ₀ ∧ ∀ [Dtype], ∀ δ ≤ δ₀, ∀ t ∈ Sfh.Table t₀ T δ, ∀ τ, 0 < τ → τ ≤ T →
      |massFormed t.2 (fun i => S (t.2 i)) sfr_min τ - Sfh.massFrom S t₀ τ| ≤ C * δ ^ 2 := by
  obtain ⟨C, δ₀, _, h⟩ := mass_order hs h0 hT hS hp
  exact ⟨C, δ₀, h⟩

/-- C166: **age weights** are second-order accurate in the gap of the table. -/
theorem C166_age_weights {m : ℕ} {g : Fin (m + 3) → ℝ} {t_obs : ℝ} (hs : 0 < sfr_min) (h0 : 0.001 < t₀) (hT : t₀ < T) (hS : ContDiffOn ℝ 2 S (Icc t₀ T))
    (hp : ∀ x ∈ Icc t₀ T, sfr_min ≤ S x) (hobs0 : 0.001 ≤ t_obs) (hobs : t_obs ≤ T) (he : Monotone (get_lg_age_bin_edges g))
    (hpos : Sfh.massFrom S t₀ (birthTime t_obs (get_lg_age_bin_edges g (Fin.last (m + 3)))) < Sfh.massFrom S t₀ (birthTime t_obs (get_lg_age_bin_edges g 0))) :
    ∃ C δ₀, 0 < δ₀ ∧ ∀ [Dtype], ∀ δ ≤ δ₀, ∀ t ∈ Sfh.Table t₀ T δ, ∀ i, let e := get_lg_age_bin_edges g
      |calc_age_weights_from_sfh_table t.2 (fun i => S (t.2 i)) g t_obs sfr_min i -
        Sfh.shareFrom S t₀ t_obs (e i.castSucc) (e i.succ) (e 0) (e (Fin.last (m + 3)))| ≤ C * δ ^ 2 := by
  obtain ⟨C, δ₀, hC, hδ₀, h⟩ := mass_order hs h0 hT hS hp
  refine ⟨4 * C / (Sfh.massFrom S t₀ (birthTime t_obs (get_lg_age_bin_edges g 0)) - Sfh.massFrom S t₀ (birthTime t_obs (get_lg_age_bin_edges g (Fin.last (m + 3))))),
    δ₀, hδ₀, fun [Dtype] δ hδ t ht i => ?_⟩
  have hM : ∀ x, |massFormed t.2 (fun i => S (t.2 i)) sfr_min (birthTime t_obs x) - Sfh.massFrom S t₀ (birthTime t_obs x)| ≤ C * δ ^ 2 := fun x =>
    h δ hδ t ht _ (birthTime_pos _ _) (birth_mem hobs0 hobs).2
  have mono : ∀ x y, x ≤ y → massFormed t.2 (fun i => S (t.2 i)) sfr_min (birthTime t_obs y) ≤ massFormed t.2 (fun i => S (t.2 i)) sfr_min (birthTime t_obs x) :=
    fun x y hxy => massFormed_mono ht.1 (by rw [ht.2.1]; exact h0) hs (birthTime_pos _ _) (birthTime_anti _ hxy)
  simp only
  rw [age_weights_eq]
  unfold Sfh.shareFrom
  have d : ∀ {p p' q q' E : ℝ}, |p' - p| ≤ E → |q' - q| ≤ E → |(p' - q') - (p - q)| ≤ 2 * E := by
    intro p p' q q' E h1 h2
    rw [abs_le] at *
    constructor <;> linarith [h1.1, h1.2, h2.1, h2.2]
  refine (ratio_err ?_ ?_ (sub_pos.mpr hpos) (d (hM _) (hM _)) (d (hM _) (hM _))).trans_eq (by ring)
  · exact sub_nonneg.mpr (mono _ _ (he (Fin.castSucc_lt_succ (i := i)).le))
  · exact sub_le_sub (mono _ _ (he (Fin.zero_le _))) (mono _ _ (he (Fin.le_last _)))

/-- C166: **SED**: the rest-frame spectrum of a galaxy with one metallicity is second-order accurate in the gap of the table: within `C δ²` of the
mass formed, times the mean over metallicity and age of the SSP spectra weighted with the exact shares. -/
theorem C166_sed {m k w : ℕ} {g : Fin (m + 3) → ℝ} {t_obs gal_lgmet scatter : ℝ} {y : Fin (k + 3) → ℝ} {flux : Fin (k + 3) → Fin (m + 3) → Fin w → ℝ}
    (hs : 0 < sfr_min) (h0 : 0.001 < t₀) (hT : t₀ < T) (hS : ContDiffOn ℝ 2 S (Icc t₀ T)) (hp : ∀ x ∈ Icc t₀ T, sfr_min ≤ S x ∧ 1e-14 ≤ S x)
    (hobs0 : 0.001 ≤ t_obs) (hobs : t_obs ≤ T) (he : Monotone (get_lg_age_bin_edges g))
    (hpos : Sfh.massFrom S t₀ (birthTime t_obs (get_lg_age_bin_edges g (Fin.last (m + 3)))) < Sfh.massFrom S t₀ (birthTime t_obs (get_lg_age_bin_edges g 0)))
    (hmet : ∑ i, Dsps.MetallicityWeights.calc_lgmet_weights_from_lognormal_mdf gal_lgmet scatter y i = 1) (l : Fin w) :
    ∃ C δ₀, 0 < δ₀ ∧ ∀ [Dtype], ∀ δ ≤ δ₀, ∀ t ∈ Sfh.Table t₀ T δ, let e := get_lg_age_bin_edges g
      |(Dsps.SspWeights.calc_rest_sed_sfh_table_lognormal_mdf t.2 (fun i => S (t.2 i)) gal_lgmet scatter y g flux t_obs sfr_min).rest_sed l -
        Sfh.massFrom S t₀ t_obs * ∑ i, ∑ j, Dsps.MetallicityWeights.calc_lgmet_weights_from_lognormal_mdf gal_lgmet scatter y i *
          Sfh.shareFrom S t₀ t_obs (e j.castSucc) (e j.succ) (e 0) (e (Fin.last (m + 3))) * flux i j l| ≤ C * δ ^ 2 := by
  obtain ⟨C1, d1, p1, q1, h1⟩ := mass_order hs h0 hT hS (fun x hx => (hp x hx).1)
  obtain ⟨C2, d2, p2, q2, h2⟩ := mass_order (sfr_min := 1e-14) (by norm_num) h0 hT hS (fun x hx => (hp x hx).2)
  obtain ⟨C3, d3, q3, h3⟩ := C166_age_weights (g := g) (t_obs := t_obs) (sfr_min := 1e-14) (by norm_num) h0 hT hS (fun x hx => (hp x hx).2) hobs0 hobs he hpos
  set Z := Dsps.MetallicityWeights.calc_lgmet_weights_from_lognormal_mdf gal_lgmet scatter y with hZ
  set D := Sfh.massFrom S t₀ (birthTime t_obs (get_lg_age_bin_edges g 0)) - Sfh.massFrom S t₀ (birthTime t_obs (get_lg_age_bin_edges g (Fin.last (m + 3)))) with hD
  have hDp : 0 < D := sub_pos.mpr hpos
  set Q := fun j : Fin (m + 3) => Sfh.shareFrom S t₀ t_obs (get_lg_age_bin_edges g j.castSucc) (get_lg_age_bin_edges g j.succ) (get_lg_age_bin_edges g 0) (get_lg_age_bin_edges g (Fin.last (m + 3))) with hQ
  set P := ∑ i, ∑ j, Z i * Q j * flux i j l with hP
  set G := ∑ i, ∑ j, |Z i * flux i j l| with hG
  have hG0 : 0 ≤ G := Finset.sum_nonneg fun i _ => Finset.sum_nonneg fun j _ => abs_nonneg _
  set m₀ := Sfh.massFrom S t₀ t_obs with hm0
  refine ⟨C1 * (|P| + G * |C3|) + |m₀| * (G * |C3|), min 1 (min (min d1 d2) (min d3 (D / (4 * (C2 + 1))))), by positivity, fun [Dtype] δ hδ t ht => ?_⟩
  have k1 : δ ≤ 1 := hδ.trans (min_le_left _ _)
  have k2 : δ ≤ d1 := hδ.trans ((min_le_right _ _).trans ((min_le_left _ _).trans (min_le_left _ _)))
  have k3 : δ ≤ d2 := hδ.trans ((min_le_right _ _).trans ((min_le_left _ _).trans (min_le_right _ _)))
  have k4 : δ ≤ d3 := hδ.trans ((min_le_right _ _).trans ((min_le_right _ _).trans (min_le_left _ _)))
  have k5 : δ ≤ D / (4 * (C2 + 1)) := hδ.trans ((min_le_right _ _).trans ((min_le_right _ _).trans (min_le_right _ _)))
  have hδ0 : 0 ≤ δ := by
    have := ht.2.2.2.1 0
    have h3 := ht.1 (Fin.castSucc_lt_succ (i := (0 : Fin (t.1 + 1))))
    linarith
  have hsq : δ ^ 2 ≤ 1 := pow_le_one₀ hδ0 k1
  have hsq0 : 0 ≤ δ ^ 2 := by positivity
  have eM := h1 δ k2 t ht t_obs (lt_of_lt_of_le (by norm_num) hobs0) hobs
  have eA := h3 δ k4 t ht
  set A := calc_age_weights_from_sfh_table t.2 (fun i => S (t.2 i)) g t_obs SFR_MIN with hA
  have hsum : ∑ j, A j = 1 := by
    have b : ∀ x, |massFormed t.2 (fun i => S (t.2 i)) 1e-14 (birthTime t_obs x) - Sfh.massFrom S t₀ (birthTime t_obs x)| ≤ C2 * δ ^ 2 := fun x =>
      h2 δ k3 t ht _ (birthTime_pos _ _) (birth_mem hobs0 hobs).2
    have hpos' : 0 < massFormed t.2 (fun i => S (t.2 i)) SFR_MIN (birthTime t_obs (get_lg_age_bin_edges g 0)) -
        massFormed t.2 (fun i => S (t.2 i)) SFR_MIN (birthTime t_obs (get_lg_age_bin_edges g (Fin.last (m + 3)))) := by
      have b0 := abs_le.mp (b (get_lg_age_bin_edges g 0))
      have b1 := abs_le.mp (b (get_lg_age_bin_edges g (Fin.last (m + 3))))
      rw [le_div_iff₀ (by positivity)] at k5
      have : C2 * δ ^ 2 ≤ D / 4 := by nlinarith [mul_nonneg p2 hδ0]
      unfold SFR_MIN
      rw [hD] at *
      linarith [b0.1, b1.2]
    simp only [hA, age_weights_eq]
    rw [← Finset.sum_div, sum_telescope' (fun i => massFormed t.2 (fun i => S (t.2 i)) SFR_MIN (birthTime t_obs (get_lg_age_bin_edges g i)))]
    exact div_self hpos'.ne'
  have hsed := (C25_sed_formula t.2 (fun i => S (t.2 i)) (fun _ => 0) gal_lgmet scatter y g flux t_obs sfr_min l).1
  have hw : ∀ i j, (Dsps.SspWeights.calc_rest_sed_sfh_table_lognormal_mdf t.2 (fun i => S (t.2 i)) gal_lgmet scatter y g flux t_obs sfr_min).weights i j = Z i * A j := by
    intro i j
    have e : (∑ i, ∑ j, Z i * A j) = 1 := by rw [← Finset.sum_mul_sum, hmet, hsum, one_mul]
    simp only [Dsps.SspWeights.calc_rest_sed_sfh_table_lognormal_mdf, Dsps.SspWeights.calc_ssp_weights_sfh_table_lognormal_mdf, sum2_eq, ← hZ, ← hA, e, div_one]
  simp only at hsed ⊢
  rw [hsed]
  simp only [hw]
  set P' := ∑ i, ∑ j, Z i * A j * flux i j l with hP'
  have hPP : |P' - P| ≤ G * |C3| * δ ^ 2 := by
    rw [hP', hP, ← Finset.sum_sub_distrib, hG, Finset.sum_mul, Finset.sum_mul]
    refine (Finset.abs_sum_le_sum_abs _ _).trans (Finset.sum_le_sum fun i _ => ?_)
    rw [← Finset.sum_sub_distrib, Finset.sum_mul, Finset.sum_mul]
    refine (Finset.abs_sum_le_sum_abs _ _).trans (Finset.sum_le_sum fun j _ => ?_)
    have e := eA j
    rw [show Z i * A j * flux i j l - Z i * Q j * flux i j l = (Z i * flux i j l) * (A j - Q j) by ring, abs_mul, mul_assoc]
    refine mul_le_mul_of_nonneg_left (le_trans e ?_) (abs_nonneg _)
    exact mul_le_mul_of_nonneg_right (le_abs_self _) hsq0
  have hGC : 0 ≤ G * |C3| := by positivity
  have hP'b : |P'| ≤ |P| + G * |C3| := by
    have := abs_sub_abs_le_abs_sub P' P
    nlinarith
  generalize massFormed t.2 (fun i => S (t.2 i)) sfr_min t_obs = m' at *
  rw [show m' * P' - m₀ * P = (m' - m₀) * P' + m₀ * (P' - P) by ring]
  refine (abs_add_le _ _).trans ?_
  rw [abs_mul, abs_mul]
  have u1 := mul_le_mul eM hP'b (abs_nonneg _) (by positivity)
  have u2 := mul_le_mul_of_nonneg_left hPP (abs_nonneg m₀)
  refine (add_le_add u1 u2).trans_eq (by ring)

/-- C166: some mass is born in the range of the age grid once the ages are distinct and the youngest stars are born after the first table time -/
theorem C166_populated {m : ℕ} {g : Fin (m + 3) → ℝ} {t_obs : ℝ} (h0 : 0.001 ≤ t₀) (hS : ContinuousOn S (Icc t₀ T)) (hp : ∀ x ∈ Icc t₀ T, 0 < S x) (hobs : t_obs ≤ T)
    (he : get_lg_age_bin_edges g 0 < get_lg_age_bin_edges g (Fin.last (m + 3))) (hy : (10:ℝ) ^ get_lg_age_bin_edges g 0 < t_obs - t₀) :
    Sfh.massFrom S t₀ (birthTime t_obs (get_lg_age_bin_edges g (Fin.last (m + 3)))) < Sfh.massFrom S t₀ (birthTime t_obs (get_lg_age_bin_edges g 0)) := by
  have h3 : (10:ℝ) ^ get_lg_age_bin_edges g 0 < (10:ℝ) ^ get_lg_age_bin_edges g (Fin.last (m + 3)) := (Real.rpow_lt_rpow_left_iff (by norm_num)).mpr he
  have hpw : 0 < (10:ℝ) ^ get_lg_age_bin_edges g 0 := Real.rpow_pos_of_pos (by norm_num) _
  have e0 : birthTime t_obs (get_lg_age_bin_edges g 0) = t_obs - (10:ℝ) ^ get_lg_age_bin_edges g 0 := max_eq_right (by linarith)
  have hlt : max t₀ (birthTime t_obs (get_lg_age_bin_edges g (Fin.last (m + 3)))) < birthTime t_obs (get_lg_age_bin_edges g 0) := by
    rw [e0]
    exact max_lt (by linarith) (max_lt (by linarith) (by linarith))
  have hT : birthTime t_obs (get_lg_age_bin_edges g 0) ≤ T := by rw [e0]; linarith
  unfold Sfh.massFrom
  generalize birthTime t_obs (get_lg_age_bin_edges g 0) = y at *
  generalize birthTime t_obs (get_lg_age_bin_edges g (Fin.last (m + 3))) = x at *
  have hx : max t₀ x ∈ Icc t₀ T := ⟨le_max_left _ _, hlt.le.trans hT⟩
  have hyT : y ∈ Icc t₀ T := ⟨(le_max_left _ _).trans hlt.le, hT⟩
  have ht : t₀ ∈ Icc t₀ T := ⟨le_rfl, hyT.1.trans hT⟩
  rw [max_eq_right hyT.1, ← intervalIntegral.integral_add_adjacent_intervals (hS.mono (uIcc_subset_Icc ht hx)).intervalIntegrable
    (hS.mono (uIcc_subset_Icc hx hyT)).intervalIntegrable]
  have := intervalIntegral.intervalIntegral_pos_of_pos_on (hS.mono (uIcc_subset_Icc hx hyT)).intervalIntegrable
    (fun u hu => hp u ⟨hx.1.trans hu.1.le, hu.2.le.trans hT⟩) hlt
  linarith
end mass

/-! ## the order is attained, and the tables exist -/

/-- C166: **second order is exact**: for a quadratic integrand the trapezoid rule's error is `M/12` times the sum of the cubed gaps. -/
theorem C166_trapz_sharp (x : Fin (n + 1) → ℝ) :
    trapz x (fun i => M / 2 * x i ^ 2) - ∫ y in x 0..x (Fin.last n), M / 2 * y ^ 2 = M / 12 * ∑ i : Fin n, (x i.succ - x i.castSucc) ^ 3 := by
  rw [← sum_cells (f := fun y => M / 2 * y ^ 2) x (fun i => Continuous.intervalIntegrable (by fun_prop) _ _), trapz_eq, ← Finset.sum_sub_distrib, Finset.mul_sum]
  refine Finset.sum_congr rfl fun i _ => ?_
  rw [intervalIntegral.integral_const_mul, integral_pow]
  norm_num
  ring

lemma uniform_grid {δ : ℝ} (hab : a < b) (hδ : 0 < δ) : ∃ n : ℕ, ∃ h : ℝ, 0 < h ∧ h ≤ δ ∧ ∃ x : Fin (n + 2) → ℝ, StrictMono x ∧ x 0 = a ∧ x (Fin.last (n + 1)) = b ∧
    ∀ i : Fin (n + 1), x i.succ - x i.castSucc = h := by
  have hp := sub_pos.mpr hab
  obtain ⟨n, hn⟩ := exists_nat_gt ((b - a) / δ)
  have hn0 : (0:ℝ) < (n:ℝ) + 1 := by positivity
  have hstep : (b - a) / ((n:ℝ) + 1) ≤ δ := by
    rw [div_lt_iff₀ hδ] at hn
    rw [div_le_iff₀ hn0]
    nlinarith
  have hq : 0 < (b - a) / ((n:ℝ) + 1) := by positivity
  refine ⟨n, (b - a) / ((n:ℝ) + 1), hq, hstep, fun i => a + (b - a) / ((n:ℝ) + 1) * (i:ℕ), ?_, ?_, ?_, ?_⟩
  · intro i j h
    have : ((i:ℕ):ℝ) < ((j:ℕ):ℝ) := by exact_mod_cast h
    simp only
    nlinarith
  · simp
  · simp only [Fin.val_last]
    push_cast
    field_simp
    ring
  · intro i
    simp only [Fin.val_succ, Fin.val_castSucc]
    push_cast
    ring

/-- C166: time tables as fine as wished exist, once the interpolation guard is small enough for them. -/
theorem C166_tables_exist {t₀ T δ : ℝ} (h0 : 0 < t₀) (hT : t₀ < T) (hδ : 0 < δ) : ∃ e > 0, ∀ [Dtype], Dtype.interpEps ≤ e → (Sfh.Table t₀ T δ).Nonempty := by
  obtain ⟨n, h, hh, hd, x, hx, x0, xT, hg⟩ := uniform_grid hT hδ
  have hl : 0 < Real.log 10 := Real.log_pos (by norm_num)
  have hTp := h0.trans hT
  refine ⟨h / (2 * T * Real.log 10), by positivity, fun [Dtype] he => ⟨⟨n, x⟩, hx, x0, xT, fun i => (hg i).le.trans hd, fun i => he.trans_lt ?_⟩⟩
  have hp : 0 < x i.castSucc := (x0 ▸ h0).trans_le (hx.monotone (Fin.zero_le _))
  have hs : 0 < x i.succ := (x0 ▸ h0).trans_le (hx.monotone (Fin.zero_le _))
  have hTs : x i.succ ≤ T := xT ▸ hx.monotone (Fin.le_last _)
  have h2 := Real.one_sub_inv_le_log_of_pos (div_pos hs hp)
  rw [Real.log_div hs.ne' hp.ne', inv_div] at h2
  simp only [Jnp.log10, Real.logb]
  rw [← sub_div]
  have h3 : h / T ≤ 1 - x i.castSucc / x i.succ := by
    rw [show 1 - x i.castSucc / x i.succ = (x i.succ - x i.castSucc) / x i.succ by field_simp, hg]
    exact div_le_div_of_nonneg_left hh.le hs hTs
  rw [div_lt_div_iff₀ (by positivity) hl]
  have h4 : h ≤ T * (Real.log (x i.succ) - Real.log (x i.castSucc)) := by
    have := h3.trans h2
    rwa [div_le_iff₀ hTp, mul_comm] at this
  nlinarith

/-- C166: wavelength grids as fine as wished exist, once the guard is small enough for them. -/
theorem C166_grids_exist {δ : ℝ} (hab : a < b) (hz : -1 < z) (hδ : 0 < δ) :
    ∃ e > 0, ∀ [Dtype], Dtype.interpEps ≤ e → ∃ x ∈ Band.Fine a b δ, Resolved fun j => x.2 j * (1 + z) := by
  obtain ⟨n, h, hh, hd, x, hx, x0, xT, hg⟩ := uniform_grid hab hδ
  have h1 : 0 < 1 + z := by linarith
  refine ⟨h * (1 + z) / 2, by positivity, fun [Dtype] he => ⟨⟨n, x⟩, ⟨hx.monotone, x0, xT, fun i => (hg i).le.trans hd⟩, fun i => he.trans_lt ?_⟩⟩
  rw [← sub_mul, hg]
  have : 0 < h * (1 + z) := by positivity
  linarith

/-- a rising star formation history, from 1 to 10 Gyr -/
example : ∃ C δ₀, 0 < δ₀ ∧ ∀ [Dtype], ∀ δ ≤ δ₀, ∀ t ∈ Sfh.Table 1 10 δ, ∀ τ, 0 < τ → τ ≤ 10 →
    |massFormed t.2 (fun i => t.2 i ^ 3) 1e-14 τ - Sfh.massFrom (fun x => x ^ 3) 1 τ| ≤ C * δ ^ 2 :=
  C166_mass_formed (S := fun x => x ^ 3) (t₀ := 1) (T := 10) (sfr_min := 1e-14) (by norm_num) (by norm_num) (by norm_num) (by fun_prop) (fun x hx => by
    have : 1 ≤ x ^ 3 := one_le_pow₀ hx.1
    norm_num at this ⊢; linarith)

/-- a quarter of the gap, a sixteenth of the error bound: mass between 1 and 10 Gyr -/
example {t : Fin (n + 2) → ℝ} {δ : ℝ} (ht : Monotone t) (h0 : t 0 = 1) (hT : t (Fin.last (n + 1)) = 10) (hδ : ∀ i : Fin (n + 1), t i.succ - t i.castSucc ≤ δ) :
    |(cumulative_mstar_formed t (fun i => t i ^ 3) (Fin.last (n + 1)) - cumulative_mstar_formed t (fun i => t i ^ 3) 0) - 1e9 * ((10 ^ 4 - 1) / 4)| ≤ 4.5e10 * δ ^ 2 := by
  have h := C166_mass_between (S := fun x : ℝ => x ^ 3) (M := 60) (δ := δ) ht (by
    rw [h0, hT]
    refine ⟨by fun_prop, fun x => 3 * x ^ 2, fun x => 6 * x, fun x hx => ⟨by simpa using hasDerivAt_pow 3 x, ?_, ?_⟩⟩
    · refine ((hasDerivAt_pow 2 x).const_mul 3).congr_deriv ?_
      norm_num; ring
    · rw [abs_of_pos (by linarith [hx.1])]; linarith [hx.2]) (by norm_num) hδ (Fin.zero_le (Fin.last (n + 1)))
  simp only [h0, hT, integral_pow] at h
  have e1 : ((3:ℕ):ℝ) + 1 = 4 := by norm_num
  have e2 : (1e9:ℝ) * (60 * δ ^ 2 / 12 * (10 - 1)) = 4.5e10 * δ ^ 2 := by ring
  rw [e1, e2, one_pow] at h
  exact h

/-- a smooth spectrum through a smooth filter, at redshift 1 -/
example : ∃ C δ₀, 0 < δ₀ ∧ ∀ [Dtype], ∀ δ ≤ δ₀, ∀ x ∈ Band.Fine 1000 10000 δ, ∀ f ∈ Band.Fine 4000 6000 δ, (Resolved fun j => x.2 j * (1 + 1)) →
    |calc_obs_mag x.2 (fun j => x.2 j ^ 2) f.2 (fun i => f.2 i) 1 0.3 (-1) 0 0.7 -
      (Band.mag (fun x => x ^ 2) (fun x => x) 4000 6000 1 + (Dsps.FlatWcdm.distance_modulus_to_z 1 0.3 (-1) 0 0.7 - 2.5 * Real.logb 10 (1 + 1)))| ≤ C * δ ^ 2 := by
  have hne : ∀ x ∈ uIcc (4000:ℝ) 6000, x ≠ 0 := fun x hx => by
    rw [uIcc_of_le (by norm_num)] at hx
    linarith [hx.1]
  refine C166_obs_mag (L := fun x => x ^ 2) (Tr := fun x => x) (a := 4000) (b := 6000) (c := 1000) (d := 10000) (z := 1) ⟨by norm_num, by norm_num, by norm_num, by norm_num, by norm_num⟩ (by fun_prop) (by fun_prop) ?_ ?_ 0.3 (-1) 0 0.7
  · have : Band.flux (fun x => x ^ 2) (fun x => x) 4000 6000 1 = ∫ x in (4000:ℝ)..6000, (1 / 4) * x ^ 2 := by
      refine intervalIntegral.integral_congr fun x hx => ?_
      have := hne x hx
      simp only
      field_simp; norm_num
    rw [this, intervalIntegral.integral_const_mul, integral_pow]
    norm_num
  · have : Band.ab (fun x => x) 4000 6000 = ∫ x in (4000:ℝ)..6000, (1.13492e-13:ℝ) := by
      refine intervalIntegral.integral_congr fun x hx => ?_
      have := hne x hx
      simp only
      field_simp
    rw [this]
    norm_num

lemma case_from : Sfh.massFrom (fun x => 1 + x) 1 (birthTime 13 (get_lg_age_bin_edges (m := 0) caseA (Fin.last 3))) <
    Sfh.massFrom (fun x => 1 + x) 1 (birthTime 13 (get_lg_age_bin_edges (m := 0) caseA 0)) :=
  C166_populated (T := 13.8) (by norm_num) (by fun_prop) (fun x hx => by linarith [hx.1]) (by norm_num) (C17_age_edges_mono (m := 0) caseA caseA_mild (by decide))
    (by have := case_young; norm_num [caseT] at this ⊢; linarith)

/-- a star formation rate rising linearly from 1 Gyr on, observed at 13 Gyr -/
example := C166_age_weights (m := 0) (S := fun x => 1 + x) (t₀ := 1) (T := 13.8) (t_obs := 13) (sfr_min := 1e-14) (g := caseA) (by norm_num) (by norm_num) (by norm_num) (by fun_prop)
  (fun x hx => by norm_num; linarith [hx.1]) (by norm_num) (by norm_num) caseA_edges case_from
example := C166_sed (m := 0) (k := 2) (w := 1) (S := fun x => 1 + x) (t₀ := 1) (T := 13.8) (t_obs := 13) (sfr_min := 1e-14) (g := caseA) (gal_lgmet := -1) (scatter := 0.3) (y := caseZ)
  (flux := fun _ _ _ => 1) (by norm_num) (by norm_num) (by norm_num) (by fun_prop) (fun x hx => by norm_num; linarith [hx.1]) (by norm_num) (by norm_num) caseA_edges case_from
  (C21_lgmet_weights_sum _ _ (by norm_num) _ (by norm_num) (by norm_num)) 0
end Dsps.Props
