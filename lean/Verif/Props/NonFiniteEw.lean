import Verif.Model.XFEw
import Verif.Lemmas.XFSed
import Verif.Props.EwMore

/-! C134: when equivalent widths are finite, and when they are nan. -/
namespace Dsps.Props
open XF Dsps.Lemmas Spec

variable {n : ℕ}

/-- What is assumed of `jnp.linalg.lstsq` on floats: on finite input it returns the minimum-norm least-squares solution of a solver `exact`, and a nan in the matrix
or the right-hand side makes every coefficient nan (JAX multiplies by the whole of `u` and `vt`, and `0 * nan` is nan). -/
structure FloatLstsq (lstsq : XFEw.Lstsq n) (exact : EquivalentWidth.Lstsq n) : Prop where
  solves : IsLstsq exact
  finite : ∀ A b A' b', (∀ i k, Rep (A i k) (A' i k)) → (∀ i, Rep (b i) (b' i)) → ∀ k, Rep (lstsq A b k) (exact A' b' k)
  nanA : ∀ A b i k, A i k = nan → ∀ l, lstsq A b l = nan
  nanb : ∀ A b i, b i = nan → ∀ l, lstsq A b l = nan

/-- such solvers exist -/
theorem exists_floatLstsq : ∃ (lstsq : XFEw.Lstsq n) (exact : EquivalentWidth.Lstsq n), FloatLstsq lstsq exact := by
  classical
  obtain ⟨ex, hex⟩ := exists_lstsq (n := n) (m := 3)
  refine ⟨fun A b => if (∃ i k, A i k = nan) ∨ ∃ i, b i = nan then fun _ => nan else fun k => fin (ex (Matrix.of fun i k => (A i k).val) (fun i => (b i).val) k), ex, hex,
    ?_, fun A b i k h l => by rw [if_pos (.inl ⟨i, k, h⟩)], fun A b i h l => by rw [if_pos (.inr ⟨i, h⟩)]⟩
  intro A b A' b' hA hb k
  have hno : ¬ ((∃ i k, A i k = nan) ∨ ∃ i, b i = nan) := by
    rintro (⟨i, k, h⟩ | ⟨i, h⟩)
    · exact not_rep_nan _ (h ▸ hA i k)
    · exact not_rep_nan _ (h ▸ hb i)
  rw [if_neg hno]
  have e1 : (Matrix.of fun i k => (A i k).val) = A' := by funext i k; exact (hA i k).val
  have e2 : (fun i => (b i).val) = b' := by funext i; exact (hb i).val
  rw [e1, e2]
  exact Rep.fin _

open Classical in
theorem rep_quadfit (x a b c d : ℝ) :
    Rep (XFEw.get_quadfit_weights (fin x) (fin a) (fin b) (fin c) (fin d)) (EquivalentWidth.get_quadfit_weights x a b c d) := by
  unfold XFEw.get_quadfit_weights EquivalentWidth.get_quadfit_weights
  refine rep_ite ?_ (fun _ => Rep.fin 1) (fun _ => Rep.fin 0)
  simp only [(Rep.fin _).le_iff (Rep.fin _), ge_iff_le]

open Classical in
theorem rep_intw (x a b : ℝ) :
    Rep (XFEw.get_integration_weights (fin x) (fin a) (fin b)) (EquivalentWidth.get_integration_weights x a b) := by
  unfold XFEw.get_integration_weights EquivalentWidth.get_integration_weights
  refine rep_ite ?_ (fun _ => Rep.fin 1) (fun _ => Rep.fin 0)
  simp only [(Rep.fin _).le_iff (Rep.fin _), ge_iff_le]

theorem rep_sqrt {a : XF} {x : ℝ} (h : Rep a x) (hx : 0 ≤ x) : Rep (XFPhot.sqrt a) (Real.sqrt x) := by
  rcases h with rfl | ⟨rfl, rfl⟩
  · simp only [XFPhot.sqrt, if_neg (not_lt.2 hx)]; exact Rep.fin _
  · simp [XFPhot.sqrt, Rep]

theorem rep_vander (x : Fin n → ℝ) (i : Fin n) (k : Fin 3) : Rep (XFEw.vander3 (fun i => fin (x i)) i k) (EquivalentWidth.vander3 x i k) :=
  (Rep.fin (x i)).npow _

theorem rep_scale {x : Fin n → ℝ} {w : Fin n → XF} {w' : Fin n → ℝ} (hw : ∀ i, Rep (w i) (w' i)) (k : Fin 3) :
    Rep (XFPhot.sqrt (XF.sum fun i => XFEw.vander3 (fun i => fin (x i)) i k * w i * (XFEw.vander3 (fun i => fin (x i)) i k * w i)))
      (Real.sqrt (∑ i, EquivalentWidth.vander3 x i k * w' i * (EquivalentWidth.vander3 x i k * w' i))) :=
  rep_sqrt (rep_sum fun i => ((rep_vander x i k).mul (hw i)).mul ((rep_vander x i k).mul (hw i))) (Finset.sum_nonneg fun i _ => mul_self_nonneg _)

/-- C134: real spectra with a sample of nonzero wavelength in the continuum windows: line flux, continuum and coefficients are finite and those of the real
model; the equivalent width is, too, if the continuum does not vanish at the line, and otherwise it is infinite, or nan if the line flux is zero. -/
theorem C134_finite {lstsq : XFEw.Lstsq (n + 1)} {exact : EquivalentWidth.Lstsq (n + 1)} (hl : FloatLstsq lstsq exact) (wave flux : Fin (n + 1) → ℝ)
    (llo lmid lhi : ℝ) {a b c d : ℝ} (hne : ∃ i, InWindows a b c d (wave i) ∧ wave i ≠ 0) :
    let r := EquivalentWidth.continuum_line_decomp_kern exact wave flux llo lmid lhi a b c d
    let r' := XFEw.continuum_line_decomp_kern lstsq (fun i => fin (wave i)) (fun i => fin (flux i)) (fin llo) (fin lmid) (fin lhi) (fin a) (fin b) (fin c) (fin d)
    Rep r'.2.1 r.2.1 ∧ Rep r'.2.2.1 r.2.2.1 ∧ (∀ k, Rep (r'.2.2.2 k) (r.2.2.2 k)) ∧ (r.2.2.1 ≠ 0 → Rep r'.1 r.1) ∧
      (r.2.2.1 = 0 → r.2.1 ≠ 0 → ∃ s, r'.1 = inf s) ∧ (r.2.2.1 = 0 → r.2.1 = 0 → r'.1 = nan) ∧
      XFEw.ew_kernel lstsq (fun i => fin (wave i)) (fun i => fin (flux i)) (fin llo) (fin lmid) (fin lhi) (fin a) (fin b) (fin c) (fin d) = (r'.1, r'.2.1) := by
  have hq := fun i => rep_quadfit (wave i) a b c d
  have hsc := fun k => rep_scale (x := wave) hq k
  have hpos : ∀ k : Fin 3, Real.sqrt (∑ i, EquivalentWidth.vander3 wave i k * EquivalentWidth.get_quadfit_weights (wave i) a b c d *
      (EquivalentWidth.vander3 wave i k * EquivalentWidth.get_quadfit_weights (wave i) a b c d)) ≠ 0 := by
    intro k
    obtain ⟨l, h1, h2⟩ := hne
    refine (Real.sqrt_pos.2 (Finset.sum_pos' (fun l _ => mul_self_nonneg _) ⟨l, Finset.mem_univ _, mul_self_pos.2 ?_⟩)).ne'
    rw [quadfit_one h1]
    exact mul_ne_zero (pow_ne_zero _ h2) one_ne_zero
  have hfit : ∀ k, Rep (XFEw.weighted_quadratic_fit lstsq (fun i => fin (wave i)) (fun i => fin (flux i))
        (fun i => XFEw.get_quadfit_weights (fin (wave i)) (fin a) (fin b) (fin c) (fin d)) k)
      (EquivalentWidth.weighted_quadratic_fit exact wave flux (fun i => EquivalentWidth.get_quadfit_weights (wave i) a b c d) k) := by
    intro k
    refine Rep.div (hl.finite _ _ _ _ (fun i k => ?_) (fun i => (Rep.fin _).mul (hq i)) k) (hsc k) (hpos k)
    exact ((rep_vander wave i k).mul (hq i)).div (hsc k) (hpos k)
  intro r r'
  have h2 : Rep r'.2.2.1 r.2.2.1 := ((hfit 2).add ((hfit 1).mul (Rep.fin lmid))).add ((hfit 0).mul ((Rep.fin lmid).npow 2))
  have h1 : Rep r'.2.1 r.2.1 := by
    refine (rep_trapz (RepV.fin wave) fun i => (rep_intw _ _ _).mul (Rep.fin _)).sub (rep_trapz (RepV.fin wave) fun i => (rep_intw _ _ _).mul ?_)
    exact ((hfit 2).add ((hfit 1).mul (Rep.fin _))).add (((hfit 0).mul (Rep.fin _)).mul (Rep.fin _))
  refine ⟨h1, h2, hfit, fun h => h1.div h2 h, fun h h' => ?_, fun h h' => ?_, rfl⟩
  · rw [h] at h2
    exact ⟨_, (h1.div_zero h2).trans (if_neg h')⟩
  · rw [h] at h2
    exact (h1.div_zero h2).trans (if_pos h')

theorem trapz_nan {x y : Fin (n + 2) → XF} (hy : ∀ i, y i = nan) : XFSed.trapz x y = nan := by
  unfold XFSed.trapz
  rw [sum_nan (i := 0)]
  · exact XF.mul_nan _
  · simp only [Jnp.tail, Jnp.init, hy]
    rw [XF.add_nan, XF.mul_nan]

/-- if the coefficients are nan, so is everything -/
theorem all_nan {lstsq : XFEw.Lstsq (n + 2)} {wave flux : Fin (n + 2) → XF} {llo lmid lhi a b c d : XF}
    (h : ∀ k, XFEw.weighted_quadratic_fit lstsq wave flux (fun i => XFEw.get_quadfit_weights (wave i) a b c d) k = nan) :
    XFEw.continuum_line_decomp_kern lstsq wave flux llo lmid lhi a b c d = (nan, nan, nan, fun _ => nan) ∧
    XFEw.ew_kernel lstsq wave flux llo lmid lhi a b c d = (nan, nan) := by
  have hf : XFEw.weighted_quadratic_fit lstsq wave flux (fun i => XFEw.get_quadfit_weights (wave i) a b c d) = fun _ => nan := funext h
  have ht : XFSed.trapz wave (fun _ => nan) = nan := trapz_nan fun _ => rfl
  constructor
  · unfold XFEw.continuum_line_decomp_kern
    simp only [hf, XF.nan_mul, XF.nan_add, XF.mul_nan, ht, XF.sub_nan, XF.nan_div]
  · unfold XFEw.ew_kernel
    simp only [hf, XF.nan_mul, XF.nan_add, XF.mul_nan, ht, XF.sub_nan, XF.nan_div]

/-- C134: no continuum, no measurement.  If no sample lies in the continuum windows (they fall between the samples or off the grid) everything is nan. -/
theorem C134_no_continuum {lstsq : XFEw.Lstsq (n + 2)} {exact : EquivalentWidth.Lstsq (n + 2)} (hl : FloatLstsq lstsq exact) (wave : Fin (n + 2) → ℝ)
    (flux : Fin (n + 2) → XF) (llo lmid lhi : XF) {a b c d : ℝ} (hne : ∀ i, ¬ InWindows a b c d (wave i)) :
    XFEw.continuum_line_decomp_kern lstsq (fun i => fin (wave i)) flux llo lmid lhi (fin a) (fin b) (fin c) (fin d) = (nan, nan, nan, fun _ => nan) ∧
    XFEw.ew_kernel lstsq (fun i => fin (wave i)) flux llo lmid lhi (fin a) (fin b) (fin c) (fin d) = (nan, nan) := by
  refine all_nan fun k => ?_
  have hq : ∀ i, Rep (XFEw.get_quadfit_weights (fin (wave i)) (fin a) (fin b) (fin c) (fin d)) 0 := fun i => by
    rw [← quadfit_zero (hne i)]; exact rep_quadfit (wave i) a b c d
  have hsc := fun k => rep_scale (x := wave) hq k
  unfold XFEw.weighted_quadratic_fit
  simp only
  rw [hl.nanA _ _ 0 0, XF.nan_div]
  have h0 := hsc 0
  simp only [mul_zero, Finset.sum_const_zero, Real.sqrt_zero] at h0
  have h1 := (rep_vander wave 0 0).mul (hq 0)
  rw [mul_zero] at h1
  exact (h1.div_zero h0).trans (if_pos rfl)

/-- C134 (finding): a single missing pixel anywhere (flux nan; or infinite outside the continuum windows), also one that lies in no window and could not influence
a measurement, makes every output nan: the masks multiply by zero instead of selecting. -/
theorem C134_nan_pixel {lstsq : XFEw.Lstsq (n + 2)} {exact : EquivalentWidth.Lstsq (n + 2)} (hl : FloatLstsq lstsq exact) (wave : Fin (n + 2) → ℝ)
    {flux : Fin (n + 2) → XF} (llo lmid lhi : XF) {a b c d : ℝ} {j : Fin (n + 2)}
    (hj : flux j = nan ∨ (∃ s, flux j = inf s) ∧ ¬ InWindows a b c d (wave j)) :
    XFEw.continuum_line_decomp_kern lstsq (fun i => fin (wave i)) flux llo lmid lhi (fin a) (fin b) (fin c) (fin d) = (nan, nan, nan, fun _ => nan) ∧
    XFEw.ew_kernel lstsq (fun i => fin (wave i)) flux llo lmid lhi (fin a) (fin b) (fin c) (fin d) = (nan, nan) := by
  refine all_nan fun k => ?_
  unfold XFEw.weighted_quadratic_fit
  simp only
  rw [hl.nanb _ _ j, XF.nan_div]
  rcases hj with h | ⟨⟨s, h⟩, hw⟩
  · simp only [h, XF.nan_mul]
  · simp only [h]
    have hq := rep_quadfit (wave j) a b c d
    rw [quadfit_zero hw] at hq
    exact hq.inf_mul_zero s

/-- C134: finite case, at the spectrum of C62 -/
example := fun (lstsq : XFEw.Lstsq 6) (exact : EquivalentWidth.Lstsq 6) (hl : FloatLstsq lstsq exact) =>
  C134_finite (n := 5) hl ewWave ewLine 3 3.5 4 (ThreeInWindows.nonzero ewWave_three)
/-- C134: windows [1.2, 1.8] and [4.2, 4.8] between the samples -/
example := fun (lstsq : XFEw.Lstsq 6) (exact : EquivalentWidth.Lstsq 6) (hl : FloatLstsq lstsq exact) =>
  C134_no_continuum (n := 4) hl ewWave (fun i => fin (ewLine i)) 3 3.5 4 (a := 1.2) (b := 1.8) (c := 4.2) (d := 4.8)
    (fun i => by fin_cases i <;> simp [InWindows, ewWave] <;> norm_num)
/-- C134: a missing pixel at wavelength 4, outside the windows [1, 2], [5, 6] and the line [2.5, 3.5] -/
example := fun (lstsq : XFEw.Lstsq 6) (exact : EquivalentWidth.Lstsq 6) (hl : FloatLstsq lstsq exact) =>
  C134_nan_pixel (n := 4) hl ewWave (flux := fun i => if i = 3 then nan else 1) 2.5 3 3.5 (a := 1) (b := 2) (c := 5) (d := 6) (j := 3) (.inl rfl)

end Dsps.Props
