import Verif.Model.GenEw
import Verif.Lemmas.GenUtils
import Verif.Props.GradPhot
import Verif.Props.NanGrad
import Verif.Props.EwCutoff
import Verif.Props.EwMore

/-! C151: gradients (`jax.grad`) of equivalent width, line flux and continuum. -/
namespace Dsps.Props
open Rev XF Dsps.Lemmas Dsps.Constants Spec Filter Topology EquivalentWidth

variable {ι : Type} [Fintype ι] {θ : ι → ℝ} {s : Prop} {n m : ℕ}

/-- An edge of a window is either a constant, or does not sit on a wavelength of the spectrum. -/
def Settled (wave : Fin n → ℝ) (e : (ι → ℝ) → ℝ) (θ : ι → ℝ) : Prop := Fixed e θ ∨ ∀ i, wave i ≠ e θ

lemma Settled.le_left {wave : Fin n → ℝ} {e : (ι → ℝ) → ℝ} {E : Rv ι} (h : Settled wave e θ) (hE : Traced s E e θ) (hs : s) (i : Fin n) :
    ∀ᶠ y in 𝓝 θ, (e y ≤ wave i ↔ e θ ≤ wave i) := by
  rcases h with h | h
  · filter_upwards [h] with y hy; rw [hy]
  · have hc := hE.continuousAt hs
    rcases (h i).lt_or_gt with g | g
    · filter_upwards [hc.eventually (lt_mem_nhds g)] with y hy
      exact ⟨fun h => absurd h (not_le.2 hy), fun h => absurd h (not_le.2 g)⟩
    · filter_upwards [hc.eventually (gt_mem_nhds g)] with y hy
      exact ⟨fun _ => le_of_lt g, fun _ => le_of_lt hy⟩

lemma Settled.le_right {wave : Fin n → ℝ} {e : (ι → ℝ) → ℝ} {E : Rv ι} (h : Settled wave e θ) (hE : Traced s E e θ) (hs : s) (i : Fin n) :
    ∀ᶠ y in 𝓝 θ, (wave i ≤ e y ↔ wave i ≤ e θ) := by
  rcases h with h | h
  · filter_upwards [h] with y hy; rw [hy]
  · have hc := hE.continuousAt hs
    rcases (h i).lt_or_gt with g | g
    · filter_upwards [hc.eventually (lt_mem_nhds g)] with y hy
      exact ⟨fun _ => le_of_lt g, fun _ => le_of_lt hy⟩
    · filter_upwards [hc.eventually (gt_mem_nhds g)] with y hy
      exact ⟨fun h => absurd h (not_le.2 hy), fun h => absurd h (not_le.2 g)⟩

lemma gen_quadfit {a b c d : (ι → ℝ) → ℝ} {A B C D : Rv ι} (x : ℝ) (hA : Traced s A a θ) (hB : Traced s B b θ) (hC : Traced s C c θ)
    (hD : Traced s D d θ) : Gen.get_quadfit_weights x A B C D = get_quadfit_weights x (a θ) (b θ) (c θ) (d θ) := by
  have l := Traced.lit (ι := ι) (s := s) (θ := θ) x
  unfold Gen.get_quadfit_weights get_quadfit_weights
  simp only [le_iff hA l, le_iff l hB, le_iff hC l, le_iff l hD, ge_iff_le]

lemma gen_intw {a b : (ι → ℝ) → ℝ} {A B : Rv ι} (x : ℝ) (hA : Traced s A a θ) (hB : Traced s B b θ) :
    Gen.get_integration_weights x A B = get_integration_weights x (a θ) (b θ) := by
  have l := Traced.lit (ι := ι) (s := s) (θ := θ) x
  unfold Gen.get_integration_weights get_integration_weights
  simp only [le_iff hA l, le_iff l hB, ge_iff_le]

lemma traced_lstsq {rcond : ℝ} {svd : ∀ A : Matrix (Fin n) (Fin m) ℝ, Svd A} (A : Matrix (Fin n) (Fin m) ℝ) {b : Fin n → Rv ι}
    {B : (ι → ℝ) → Fin n → ℝ} (hb : TV s b B θ) : TV s (Gen.jax_lstsq rcond svd A b) (fun θ => jax_lstsq rcond svd A (B θ)) θ := by
  intro j
  refine (Traced.sum fun k => (Traced.lit ((svd A).v k j)).mul ((Traced.lit _).mul (Traced.sum fun i => (Traced.lit ((svd A).u k i)).mul (hb i)))).congr ?_
  funext y
  rfl

lemma traced_fit {rcond : ℝ} {svd : ∀ A : Matrix (Fin n) (Fin 3) ℝ, Svd A} {x w : Fin n → ℝ} {Y : Fin n → Rv ι}
    {y : (ι → ℝ) → Fin n → ℝ} (hy : TV s Y y θ) (hne : ∃ i, w i ≠ 0 ∧ x i ≠ 0) :
    TV s (Gen.weighted_quadratic_fit rcond svd x Y w) (fun θ => weighted_quadratic_fit (jax_lstsq rcond svd) x (y θ) w) θ := by
  intro k
  obtain ⟨i, h1, h2⟩ := hne
  exact (traced_lstsq (svd := svd) _ (fun i => (hy i).mul (Traced.lit (w i))) k).div (Traced.lit _) (colNorm_pos h1 h2 k).ne'

section main
variable {rcond : ℝ} {svd : ∀ A : Matrix (Fin (n + 1)) (Fin 3) ℝ, Svd A} {wave : Fin (n + 1) → ℝ} {Y : Fin (n + 1) → Rv ι}
  {flux : (ι → ℝ) → Fin (n + 1) → ℝ} {LO MID HI A B C D : Rv ι} {llo lmid lhi a b c d : (ι → ℝ) → ℝ}

/-- C151: **gradients of line flux, continuum and equivalent width.**  For every spectrum with at least one sample (of nonzero wavelength) in the
continuum windows, all four outputs of the decomposition have finite gradients with respect to the flux in every pixel, the line centre and whatever
these depend on (the equivalent width: if the continuum at the line is not zero).  They are the partial derivatives, unless an edge of a window that
itself depends on the parameters sits exactly on a wavelength of the spectrum. -/
theorem C151_decomposition_grad (hY : TV s Y flux θ) (hlo : Traced s LO llo θ) (hmid : Traced s MID lmid θ) (hhi : Traced s HI lhi θ) (hA : Traced s A a θ)
    (hB : Traced s B b θ) (hC : Traced s C c θ) (hD : Traced s D d θ)
    (hne : ∃ i, InWindows (a θ) (b θ) (c θ) (d θ) (wave i) ∧ wave i ≠ 0) :
    let edges := Settled wave llo θ ∧ Settled wave lhi θ ∧ Settled wave a θ ∧ Settled wave b θ ∧ Settled wave c θ ∧ Settled wave d θ
    let r := Gen.continuum_line_decomp_kern rcond svd wave Y LO MID HI A B C D
    let r' := fun θ => continuum_line_decomp_kern (jax_lstsq rcond svd) wave (flux θ) (llo θ) (lmid θ) (lhi θ) (a θ) (b θ) (c θ) (d θ)
    ((r' θ).2.2.1 ≠ 0 → Traced (s ∧ edges) r.1 (fun θ => (r' θ).1) θ) ∧ Traced (s ∧ edges) r.2.1 (fun θ => (r' θ).2.1) θ ∧
      Traced (s ∧ edges) r.2.2.1 (fun θ => (r' θ).2.2.1) θ ∧ TV (s ∧ edges) r.2.2.2 (fun θ => (r' θ).2.2.2) θ := by
  intro edges r r'
  set w : Fin (n + 1) → ℝ := fun i => get_quadfit_weights (wave i) (a θ) (b θ) (c θ) (d θ) with hw
  set v : Fin (n + 1) → ℝ := fun i => get_integration_weights (wave i) (llo θ) (lhi θ) with hv
  have eW : (fun i => Gen.get_quadfit_weights (wave i) A B C D) = w := by funext i; exact gen_quadfit _ hA hB hC hD
  have eV : (fun i => Gen.get_integration_weights (wave i) LO HI) = v := by funext i; exact gen_intw _ hlo hhi
  have nw : edges → s → ∀ᶠ y in 𝓝 θ, (fun i => get_quadfit_weights (wave i) (a y) (b y) (c y) (d y)) = w := by
    rintro ⟨-, -, e1, e2, e3, e4⟩ hs
    have := eventually_all.2 fun i => (e1.le_left hA hs i).and ((e2.le_right hB hs i).and ((e3.le_left hC hs i).and (e4.le_right hD hs i)))
    filter_upwards [this] with y hy
    funext i
    obtain ⟨h1, h2, h3, h4⟩ := hy i
    simp only [hw, get_quadfit_weights, ge_iff_le, h1, h2, h3, h4]
  have nv : edges → s → ∀ᶠ y in 𝓝 θ, (fun i => get_integration_weights (wave i) (llo y) (lhi y)) = v := by
    rintro ⟨e1, e2, -⟩ hs
    have := eventually_all.2 fun i => (e1.le_left hlo hs i).and (e2.le_right hhi hs i)
    filter_upwards [this] with y hy
    funext i
    obtain ⟨h1, h2⟩ := hy i
    simp only [hv, get_integration_weights, ge_iff_le, h1, h2]
  have hne' : ∃ i, w i ≠ 0 ∧ wave i ≠ 0 := by
    obtain ⟨i, h1, h2⟩ := hne
    exact ⟨i, quadfit_ne.2 h1, h2⟩
  -- the same computation with the weights frozen
  let q : (ι → ℝ) → Fin 3 → ℝ := fun θ => weighted_quadratic_fit (jax_lstsq rcond svd) wave (flux θ) w
  have hq : TV s (Gen.weighted_quadratic_fit rcond svd wave Y w) q θ := traced_fit hY hne'
  have q0 := Traced.take hq 0
  have q1 := Traced.take hq 1
  have q2 := Traced.take hq 2
  have hx : TV s (fun i => (Flt.lit (wave i) : Rv ι)) (fun _ => wave) θ := TV.lit wave
  have hcont := (q2.add (q1.mul hmid)).add (q0.mul (hmid.ipow 2))
  have hline := (hx.trapz (fun i => (Traced.lit (v i)).mul (hY i))).sub
    (hx.trapz (fun i => (Traced.lit (v i)).mul ((q2.add (q1.mul (hx i))).add ((q0.mul (hx i)).mul (hx i)))))
  let F : (ι → ℝ) → ℝ × ℝ × ℝ × (Fin 3 → ℝ) := fun y =>
    let tot := Utils.trapz wave (fun i => v i * flux y i) - Utils.trapz wave (fun i => v i * (q y 2 + q y 1 * wave i + q y 0 * wave i * wave i))
    let co := q y 2 + q y 1 * lmid y + q y 0 * lmid y ^ 2
    (tot / co, tot, co, q y)
  have en : s ∧ edges → r' =ᶠ[𝓝 θ] F := by
    rintro ⟨hs, he⟩
    filter_upwards [nw he hs, nv he hs] with y h1 h2
    simp only [r', continuum_line_decomp_kern, q, F]
    have h2' : ∀ i, get_integration_weights (wave i) (llo y) (lhi y) = v i := fun i => congrFun h2 i
    simp only [h1, h2']
  have e0 : F θ = r' θ := rfl
  let R : Rv ι × Rv ι × Rv ι × (Fin 3 → Rv ι) :=
    let coeffs := Gen.weighted_quadratic_fit rcond svd wave Y w
    let c2 := Flt.take coeffs 0
    let c1 := Flt.take coeffs 1
    let c0 := Flt.take coeffs 2
    let co := c0 + c1 * MID + c2 * Flt.ipow MID 2
    let tot := Gen.trapz (fun i => Flt.lit (wave i)) (fun i => Flt.lit (v i) * Y i) -
      Gen.trapz (fun i => Flt.lit (wave i)) (fun i => Flt.lit (v i) * (c0 + c1 * Flt.lit (wave i) + c2 * Flt.lit (wave i) * Flt.lit (wave i)))
    (tot / co, tot, co, coeffs)
  have hr : r = R := by
    have eV' : ∀ i, Gen.get_integration_weights (wave i) LO HI = v i := fun i => congrFun eV i
    simp only [r, R, Gen.continuum_line_decomp_kern, eW, eV']
  have tot : Traced (s ∧ edges) r.2.1 (fun θ => (r' θ).2.1) θ := by
    rw [hr]
    refine (hline.weaken And.left).congr_near (by rw [← e0]) fun h => ?_
    filter_upwards [en h] with y hy
    rw [hy]
  have co : Traced (s ∧ edges) r.2.2.1 (fun θ => (r' θ).2.2.1) θ := by
    rw [hr]
    refine (hcont.weaken And.left).congr_near (by rw [← e0]) fun h => ?_
    filter_upwards [en h] with y hy
    rw [hy]
  refine ⟨fun h0 => ?_, tot, co, fun k => ?_⟩
  · exact tot.div co h0
  · rw [hr]
    refine ((hq k).weaken And.left).congr_near rfl fun h => ?_
    filter_upwards [en h] with y hy
    rw [hy]

/-- C151: the equivalent-width kernel, under differentiation too, returns the first two outputs of the decomposition. -/
theorem C151_kernels_agree (rcond : ℝ) (svd : ∀ A : Matrix (Fin (n + 1)) (Fin 3) ℝ, Svd A) (wave : Fin (n + 1) → ℝ) (Y : Fin (n + 1) → Rv ι)
    (LO MID HI A B C D : Rv ι) :
    let r := Gen.continuum_line_decomp_kern rcond svd wave Y LO MID HI A B C D
    Gen.ew_kernel rcond svd wave Y LO MID HI A B C D = (r.1, r.2.1) := rfl
end main

/-! ### the gradient with respect to the flux -/

section flux
variable {rcond : ℝ} {svd : ∀ A : Matrix (Fin (n + 1)) (Fin 3) ℝ, Svd A} {wave flux : Fin (n + 1) → ℝ} {llo lmid lhi a b c d : ℝ}

/-- the spectrum, recorded for differentiation with respect to every pixel -/
noncomputable def recFlux (flux : Fin n → ℝ) : Fin n → Rv (Fin n) := fun i => Rv.var i (fin (flux i))

/-- `jax.grad` of the equivalent width, of the line flux and of the continuum at the line with respect to the flux -/
noncomputable def ewRec (rcond : ℝ) (svd : ∀ A : Matrix (Fin (n + 1)) (Fin 3) ℝ, Svd A) (wave flux : Fin (n + 1) → ℝ)
    (llo lmid lhi a b c d : ℝ) : Rv (Fin (n + 1)) × Rv (Fin (n + 1)) × Rv (Fin (n + 1)) × (Fin 3 → Rv (Fin (n + 1))) :=
  Gen.continuum_line_decomp_kern rcond svd wave (recFlux flux) (Flt.lit llo) (Flt.lit lmid) (Flt.lit lhi) (Flt.lit a) (Flt.lit b) (Flt.lit c) (Flt.lit d)

lemma fixed_const {e : ℝ} {θ : ι → ℝ} : Fixed (fun _ : ι → ℝ => e) θ := Filter.Eventually.of_forall fun _ => rfl

theorem traced_flux (hne : ∃ i, InWindows a b c d (wave i) ∧ wave i ≠ 0) :
    let r := ewRec rcond svd wave flux llo lmid lhi a b c d
    let f := fun y : Fin (n + 1) → ℝ => continuum_line_decomp_kern (jax_lstsq rcond svd) wave y llo lmid lhi a b c d
    ((f flux).2.2.1 ≠ 0 → Traced True r.1 (fun y => (f y).1) flux) ∧ Traced True r.2.1 (fun y => (f y).2.1) flux ∧
      Traced True r.2.2.1 (fun y => (f y).2.2.1) flux := by
  intro r f
  have h := C151_decomposition_grad (θ := flux) (s := True) (svd := svd) (rcond := rcond) (wave := wave) (Y := recFlux flux) (flux := fun y => y)
    (fun i => Traced.var i) (Traced.lit llo) (Traced.lit lmid) (Traced.lit lhi) (Traced.lit a) (Traced.lit b) (Traced.lit c) (Traced.lit d) hne
  have st : ∀ e : ℝ, Settled wave (fun _ : Fin (n + 1) → ℝ => e) flux := fun e => Or.inl fixed_const
  have w : ∀ _ : True, True ∧ Settled wave (fun _ : Fin (n + 1) → ℝ => llo) flux ∧ Settled wave (fun _ : Fin (n + 1) → ℝ => lhi) flux ∧
    Settled wave (fun _ : Fin (n + 1) → ℝ => a) flux ∧ Settled wave (fun _ : Fin (n + 1) → ℝ => b) flux ∧ Settled wave (fun _ : Fin (n + 1) → ℝ => c) flux ∧
    Settled wave (fun _ : Fin (n + 1) → ℝ => d) flux := fun _ => ⟨trivial, st _, st _, st _, st _, st _, st _⟩
  exact ⟨fun h0 => (h.1 h0).weaken w, h.2.1.weaken w, h.2.2.1.weaken w⟩

/-- C151: **`jax.grad` with respect to the flux** of the equivalent width (continuum at the line not zero), the line flux and the continuum is finite in
every pixel and exact; window edges may coincide with wavelengths of the spectrum, the spectrum may be of any kind. -/
theorem C151_flux_jax_grad (hne : ∃ i, InWindows a b c d (wave i) ∧ wave i ≠ 0) :
    let r := ewRec rcond svd wave flux llo lmid lhi a b c d
    let f := fun y : Fin (n + 1) → ℝ => continuum_line_decomp_kern (jax_lstsq rcond svd) wave y llo lmid lhi a b c d
    ((f flux).2.2.1 ≠ 0 → GradOk True r.1 (fun y => (f y).1) flux) ∧ GradOk True r.2.1 (fun y => (f y).2.1) flux ∧
      GradOk True r.2.2.1 (fun y => (f y).2.2.1) flux := by
  intro r f
  obtain ⟨h1, h2, h3⟩ := traced_flux (rcond := rcond) (svd := svd) (flux := flux) (llo := llo) (lmid := lmid) (lhi := lhi) hne
  exact ⟨fun h0 => (h1 h0).gradOk, h2.gradOk, h3.gradOk⟩

lemma jax_lstsq_linear {n m : ℕ} (rcond : ℝ) (svd : ∀ A : Matrix (Fin n) (Fin m) ℝ, Svd A) (A : Matrix (Fin n) (Fin m) ℝ) (f g : Fin n → ℝ) (s t : ℝ) (j : Fin m) :
    jax_lstsq rcond svd A (fun i => s * f i + t * g i) j = s * jax_lstsq rcond svd A f j + t * jax_lstsq rcond svd A g j := by
  unfold jax_lstsq svd_solve
  rw [Finset.mul_sum, Finset.mul_sum, ← Finset.sum_add_distrib]
  refine Finset.sum_congr rfl fun k _ => ?_
  have : (svd A).u k ⬝ᵥ (fun i => s * f i + t * g i) = s * ((svd A).u k ⬝ᵥ f) + t * ((svd A).u k ⬝ᵥ g) := by
    simp only [dotProduct, Finset.mul_sum]
    rw [← Finset.sum_add_distrib]
    exact Finset.sum_congr rfl fun i _ => by ring
  rw [this]; ring

lemma jax_fit_linear {n : ℕ} (rcond : ℝ) (svd : ∀ A : Matrix (Fin n) (Fin 3) ℝ, Svd A) (x f g w : Fin n → ℝ) (s t : ℝ) (k : Fin 3) :
    weighted_quadratic_fit (jax_lstsq rcond svd) x (fun i => s * f i + t * g i) w k
      = s * weighted_quadratic_fit (jax_lstsq rcond svd) x f w k + t * weighted_quadratic_fit (jax_lstsq rcond svd) x g w k := by
  unfold weighted_quadratic_fit
  simp only
  generalize (fun i k => vander3 x i k * w i / Real.sqrt (∑ l, vander3 x l k * w l * (vander3 x l k * w l))) = A
  generalize Real.sqrt (∑ l, vander3 x l k * w l * (vander3 x l k * w l)) = sc
  have h := jax_lstsq_linear rcond svd A (fun i => f i * w i) (fun i => g i * w i) s t k
  have e : (fun i => (s * f i + t * g i) * w i) = fun i => s * (f i * w i) + t * (g i * w i) := by funext i; ring
  rw [e, h]; ring

lemma jax_decomp_linear (f g : Fin (n + 1) → ℝ) (s t : ℝ) :
    let r := fun y => continuum_line_decomp_kern (jax_lstsq rcond svd) wave y llo lmid lhi a b c d
    (r fun i => s * f i + t * g i).2.1 = s * (r f).2.1 + t * (r g).2.1 ∧
    (r fun i => s * f i + t * g i).2.2.1 = s * (r f).2.2.1 + t * (r g).2.2.1 := by
  have hfit := jax_fit_linear rcond svd wave f g (fun i => get_quadfit_weights (wave i) a b c d) s t
  refine ⟨?_, ?_⟩
  · unfold continuum_line_decomp_kern
    simp only [hfit]
    rw [mul_sub, mul_sub, ← trapz_smul, ← trapz_smul, ← trapz_smul, ← trapz_smul]
    rw [show ∀ A B C D : ℝ, A - B + (C - D) = (A + C) - (B + D) by intros; ring, ← trapz_add', ← trapz_add']
    congr 1
    · congr 1; funext i; ring
    · congr 1; funext i; ring
  · unfold continuum_line_decomp_kern
    simp only [hfit]
    ring

lemma traced_dir {ι : Type} [Fintype ι] {θ : ι → ℝ} {X : Rv ι} {f : (ι → ℝ) → ℝ} (h : Traced True X f θ) :
    ∃ g : ι → ℝ, (∀ i, Rep (X.grad i) (g i)) ∧ HasFDerivAt f (lin g) θ := by
  obtain ⟨g, -, h2, -, h3⟩ := h
  exact ⟨g, fun i => (h2 1 1 (Rep.fin 1) i).of_eq (one_mul _), h3 trivial⟩

lemma lin_apply {ι : Type} [Fintype ι] (g y : ι → ℝ) : lin g y = ∑ i, g i * y i := by
  simp [lin, ContinuousLinearMap.sum_apply]

/-- derivative of `t ↦ f (θ + t·y)` -/
lemma dir_deriv {ι : Type} [Fintype ι] {θ y g : ι → ℝ} {f : (ι → ℝ) → ℝ} (h : HasFDerivAt f (lin g) θ) {D : ℝ}
    (hD : HasDerivAt (fun t : ℝ => f (θ + t • y)) D 0) : ∑ i, g i * y i = D := by
  have h1 : HasDerivAt (fun t : ℝ => θ + t • y) y 0 := by
    have := ((hasDerivAt_id (0:ℝ)).smul_const y).const_add θ
    simpa using this
  have h' : HasFDerivAt f (lin g) (θ + (0:ℝ) • y) := by simpa using h
  have h2 := h'.comp_hasDerivAt (0:ℝ) h1
  rw [← lin_apply]
  exact h2.unique hD

/-- C151: **brightness drops out**: the gradient of the equivalent width is orthogonal to the spectrum (`Σ fluxᵢ ∂EW/∂fluxᵢ = 0`), while
`Σ fluxᵢ ∂F/∂fluxᵢ = F` for the line flux `F`, and likewise for the continuum at the line. -/
theorem C151_euler (hne : ∃ i, InWindows a b c d (wave i) ∧ wave i ≠ 0) :
    let r := ewRec rcond svd wave flux llo lmid lhi a b c d
    let f := continuum_line_decomp_kern (jax_lstsq rcond svd) wave flux llo lmid lhi a b c d
    (f.2.2.1 ≠ 0 → ∃ g : Fin (n + 1) → ℝ, (∀ i, Rep (r.1.grad i) (g i)) ∧ ∑ i, flux i * g i = 0) ∧
    (∃ g : Fin (n + 1) → ℝ, (∀ i, Rep (r.2.1.grad i) (g i)) ∧ ∑ i, flux i * g i = f.2.1) ∧
    (∃ g : Fin (n + 1) → ℝ, (∀ i, Rep (r.2.2.1.grad i) (g i)) ∧ ∑ i, flux i * g i = f.2.2.1) := by
  intro r f
  obtain ⟨h1, h2, h3⟩ := traced_flux (rcond := rcond) (svd := svd) (flux := flux) (llo := llo) (lmid := lmid) (lhi := lhi) hne
  have sc : ∀ t : ℝ, flux + t • flux = fun i => (1 + t) * flux i + 0 * flux i := fun t => by
    funext i; simp; ring
  have lin' := fun t : ℝ => jax_decomp_linear (rcond := rcond) (svd := svd) (wave := wave) (llo := llo) (lmid := lmid) (lhi := lhi)
    (a := a) (b := b) (c := c) (d := d) flux flux (1 + t) 0
  have dl : ∀ K : ℝ, HasDerivAt (fun t : ℝ => (1 + t) * K + 0 * K) K 0 := fun K => by
    have := (((hasDerivAt_id (0:ℝ)).const_add 1).mul_const K).add_const (0 * K)
    simpa using this
  refine ⟨fun h0 => ?_, ?_, ?_⟩
  · obtain ⟨g, hg, hd⟩ := traced_dir (h1 h0)
    refine ⟨g, hg, ?_⟩
    have := dir_deriv (y := flux) (D := 0) hd ?_
    · rw [← this]; exact Finset.sum_congr rfl fun i _ => mul_comm _ _
    · have ev : (fun t : ℝ => (continuum_line_decomp_kern (jax_lstsq rcond svd) wave (flux + t • flux) llo lmid lhi a b c d).1) =ᶠ[𝓝 0] fun _ => f.1 := by
        have : ∀ᶠ t : ℝ in 𝓝 0, 1 + t ≠ 0 := by
          have hc : ContinuousAt (fun t : ℝ => 1 + t) 0 := by fun_prop
          exact hc.eventually_ne (by norm_num)
        filter_upwards [this] with t ht
        have e1 := (lin' t).1
        have e2 := (lin' t).2
        simp only [zero_mul, add_zero] at e1 e2
        rw [sc t]
        have e : ∀ y, (continuum_line_decomp_kern (jax_lstsq rcond svd) wave y llo lmid lhi a b c d).1 =
          (continuum_line_decomp_kern (jax_lstsq rcond svd) wave y llo lmid lhi a b c d).2.1 /
          (continuum_line_decomp_kern (jax_lstsq rcond svd) wave y llo lmid lhi a b c d).2.2.1 := fun _ => rfl
        simp only [zero_mul, add_zero]
        rw [e, e1, e2, mul_div_mul_left _ _ ht]
        rfl
      exact (hasDerivAt_const (0:ℝ) f.1).congr_of_eventuallyEq ev
  · obtain ⟨g, hg, hd⟩ := traced_dir h2
    refine ⟨g, hg, ?_⟩
    have := dir_deriv (y := flux) (D := f.2.1) hd ?_
    · rw [← this]; exact Finset.sum_congr rfl fun i _ => mul_comm _ _
    · have : (fun t : ℝ => (continuum_line_decomp_kern (jax_lstsq rcond svd) wave (flux + t • flux) llo lmid lhi a b c d).2.1) = fun t => (1 + t) * f.2.1 + 0 * f.2.1 := by
        funext t; rw [sc t]; exact (lin' t).1
      rw [this]; exact dl _
  · obtain ⟨g, hg, hd⟩ := traced_dir h3
    refine ⟨g, hg, ?_⟩
    have := dir_deriv (y := flux) (D := f.2.2.1) hd ?_
    · rw [← this]; exact Finset.sum_congr rfl fun i _ => mul_comm _ _
    · have : (fun t : ℝ => (continuum_line_decomp_kern (jax_lstsq rcond svd) wave (flux + t • flux) llo lmid lhi a b c d).2.2.1) = fun t => (1 + t) * f.2.2.1 + 0 * f.2.2.1 := by
        funext t; rw [sc t]; exact (lin' t).2
      rw [this]; exact dl _

/-- the spectrum with one unit of flux in pixel `i` -/
noncomputable def pixel (i : Fin n) : Fin n → ℝ := fun j => if j = i then 1 else 0

/-- C151: **pixels of the line.**  For a pixel outside the continuum windows, the gradient of the equivalent width is the quadrature weight of the pixel
divided by the continuum if the pixel is inside the line window, and zero otherwise. -/
theorem C151_line_pixel (hne : ∃ i, InWindows a b c d (wave i) ∧ wave i ≠ 0) {i : Fin (n + 1)} (hi : ¬ InWindows a b c d (wave i))
    (h0 : (continuum_line_decomp_kern (jax_lstsq rcond svd) wave flux llo lmid lhi a b c d).2.2.1 ≠ 0) :
    Rep ((ewRec rcond svd wave flux llo lmid lhi a b c d).1.grad i)
      (if llo ≤ wave i ∧ wave i ≤ lhi then
        Utils.trapz wave (pixel i) / (continuum_line_decomp_kern (jax_lstsq rcond svd) wave flux llo lmid lhi a b c d).2.2.1 else 0) := by
  obtain ⟨h1, -, -⟩ := traced_flux (rcond := rcond) (svd := svd) (flux := flux) (llo := llo) (lmid := lmid) (lhi := lhi) hne
  obtain ⟨g, hg, hd⟩ := traced_dir (h1 h0)
  refine (hg i).of_eq ?_
  set K := continuum_line_decomp_kern (jax_lstsq rcond svd) wave flux llo lmid lhi a b c d with hK
  have lin' := fun t : ℝ => jax_decomp_linear (rcond := rcond) (svd := svd) (wave := wave) (llo := llo) (lmid := lmid) (lhi := lhi)
    (a := a) (b := b) (c := c) (d := d) flux (pixel i) 1 t
  have w0 : get_quadfit_weights (wave i) a b c d = 0 := quadfit_zero hi
  have fit0 : ∀ k, weighted_quadratic_fit (jax_lstsq rcond svd) wave (pixel i) (fun i => get_quadfit_weights (wave i) a b c d) k = 0 := by
    intro k
    unfold weighted_quadratic_fit
    simp only
    have : (fun j => pixel i j * get_quadfit_weights (wave j) a b c d) = fun _ => 0 := by
      funext j
      unfold pixel
      split_ifs with h
      · rw [h, w0, mul_zero]
      · rw [zero_mul]
    rw [this]
    have := jax_lstsq_linear rcond svd (fun i k => vander3 wave i k * get_quadfit_weights (wave i) a b c d / Real.sqrt (∑ l, vander3 wave l k *
      get_quadfit_weights (wave l) a b c d * (vander3 wave l k * get_quadfit_weights (wave l) a b c d))) (fun _ => 0) (fun _ => 0) 0 0 k
    simp only [zero_mul, add_zero] at this
    rw [this, zero_div]
  have c0 : (continuum_line_decomp_kern (jax_lstsq rcond svd) wave (pixel i) llo lmid lhi a b c d).2.2.1 = 0 := by
    unfold continuum_line_decomp_kern
    simp only [fit0]; ring
  have l0 : (continuum_line_decomp_kern (jax_lstsq rcond svd) wave (pixel i) llo lmid lhi a b c d).2.1 =
      if llo ≤ wave i ∧ wave i ≤ lhi then Utils.trapz wave (pixel i) else 0 := by
    unfold continuum_line_decomp_kern
    simp only [fit0, zero_mul, add_zero, mul_zero]
    have z : Utils.trapz wave (fun _ => (0:ℝ)) = 0 := by
      have := trapz_smul wave (fun _ => (0:ℝ)) 0
      simpa using this
    rw [z, sub_zero]
    have : (fun j => get_integration_weights (wave j) llo lhi * pixel i j) = fun j => (if llo ≤ wave i ∧ wave i ≤ lhi then 1 else 0) * pixel i j := by
      funext j
      unfold pixel get_integration_weights
      simp only [ge_iff_le]
      by_cases h : j = i
      · subst h; congr
      · rw [if_neg h, mul_zero, mul_zero]
    rw [this, trapz_smul]
    split_ifs <;> simp
  have hsum : ∑ j, g j * pixel i j = g i := by
    unfold pixel
    simp
  rw [← hsum]
  refine dir_deriv hd ?_
  have hf : (fun t : ℝ => (continuum_line_decomp_kern (jax_lstsq rcond svd) wave (flux + t • pixel i) llo lmid lhi a b c d).1) =
      fun t => (K.2.1 + t * (if llo ≤ wave i ∧ wave i ≤ lhi then Utils.trapz wave (pixel i) else 0)) / K.2.2.1 := by
    funext t
    have e : flux + t • pixel i = fun j => 1 * flux j + t * pixel i j := by funext j; simp
    have e1 := (lin' t).1
    have e2 := (lin' t).2
    simp only at e1 e2
    rw [c0, mul_zero, add_zero, one_mul] at e2
    rw [l0, one_mul] at e1
    rw [e]
    show (continuum_line_decomp_kern (jax_lstsq rcond svd) wave (fun j => 1 * flux j + t * pixel i j) llo lmid lhi a b c d).2.1 / _ = _
    rw [e1]
    congr 1
  rw [hf]
  have := (((hasDerivAt_id (0:ℝ)).mul_const (if llo ≤ wave i ∧ wave i ≤ lhi then Utils.trapz wave (pixel i) else 0)).const_add K.2.1).div_const K.2.2.1
  refine this.congr_deriv ?_
  split_ifs <;> simp

end flux

/-! ### window edges -/

section edges
variable {rcond : ℝ} {svd : ∀ A : Matrix (Fin (n + 1)) (Fin 3) ℝ, Svd A} {wave : Fin (n + 1) → ℝ}

/-- the kernel with all arguments recorded: the flux in every pixel (`inl`) and the seven wavelengths `line_lo, line_mid, line_hi, cont_lo_lo, cont_lo_hi,
cont_hi_lo, cont_hi_hi` (`inr`) -/
noncomputable def ewRecAll (rcond : ℝ) (svd : ∀ A : Matrix (Fin (n + 1)) (Fin 3) ℝ, Svd A) (wave : Fin (n + 1) → ℝ) (θ : Fin (n + 1) ⊕ Fin 7 → ℝ) :
    Rv (Fin (n + 1) ⊕ Fin 7) × Rv (Fin (n + 1) ⊕ Fin 7) × Rv (Fin (n + 1) ⊕ Fin 7) × (Fin 3 → Rv (Fin (n + 1) ⊕ Fin 7)) :=
  let x := fun k => Rv.var k (fin (θ k))
  Gen.continuum_line_decomp_kern rcond svd wave (fun i => x (Sum.inl i)) (x (Sum.inr 0)) (x (Sum.inr 1)) (x (Sum.inr 2)) (x (Sum.inr 3)) (x (Sum.inr 4)) (x (Sum.inr 5))
    (x (Sum.inr 6))

/-- C151: **window edges get no gradient**: the gradient with respect to each of the six edges of the line and continuum windows is zero, for equivalent
width (continuum not zero), line flux and continuum, whatever the spectrum. -/
theorem C151_edges_no_grad (θ : Fin (n + 1) ⊕ Fin 7 → ℝ)
    (hne : ∃ i, InWindows (θ (Sum.inr 3)) (θ (Sum.inr 4)) (θ (Sum.inr 5)) (θ (Sum.inr 6)) (wave i) ∧ wave i ≠ 0) {k : Fin 7} (hk : k ≠ 1) :
    let r := ewRecAll rcond svd wave θ
    let f := continuum_line_decomp_kern (jax_lstsq rcond svd) wave (fun i => θ (Sum.inl i)) (θ (Sum.inr 0)) (θ (Sum.inr 1)) (θ (Sum.inr 2)) (θ (Sum.inr 3)) (θ (Sum.inr 4))
      (θ (Sum.inr 5)) (θ (Sum.inr 6))
    (f.2.2.1 ≠ 0 → Rep (r.1.grad (Sum.inr k)) 0) ∧ Rep (r.2.1.grad (Sum.inr k)) 0 ∧ Rep (r.2.2.1.grad (Sum.inr k)) 0 := by
  intro r f
  let L : ℝ → Rv (Fin (n + 1) ⊕ Fin 7) := Flt.lit
  have e : r = Gen.continuum_line_decomp_kern rcond svd wave (fun i => Rv.var (Sum.inl i) (fin (θ (Sum.inl i)))) (L (θ (Sum.inr 0))) (Rv.var (Sum.inr 1) (fin (θ (Sum.inr 1))))
    (L (θ (Sum.inr 2))) (L (θ (Sum.inr 3))) (L (θ (Sum.inr 4))) (L (θ (Sum.inr 5))) (L (θ (Sum.inr 6))) := rfl
  have h := C151_decomposition_grad (θ := θ) (s := True) (svd := svd) (rcond := rcond) (wave := wave) (flux := fun y i => y (Sum.inl i))
    (fun i => Traced.var (Sum.inl i)) (Traced.lit (θ (Sum.inr 0))) (Traced.var (Sum.inr 1)) (Traced.lit (θ (Sum.inr 2))) (Traced.lit (θ (Sum.inr 3)))
    (Traced.lit (θ (Sum.inr 4))) (Traced.lit (θ (Sum.inr 5))) (Traced.lit (θ (Sum.inr 6))) hne
  have st : ∀ e : ℝ, Settled wave (fun _ : Fin (n + 1) ⊕ Fin 7 → ℝ => e) θ := fun e => Or.inl fixed_const
  have key : ∀ {X : Rv (Fin (n + 1) ⊕ Fin 7)} {F : (Fin (n + 1) ⊕ Fin 7 → ℝ) → ℝ}, Traced True X F θ →
      (∀ (y : _ → ℝ) (t : ℝ), F (y + t • fun j : Fin (n + 1) ⊕ Fin 7 => if j = Sum.inr k then (1:ℝ) else 0) = F y) → Rep (X.grad (Sum.inr k)) 0 := by
    intro X F hX hF
    obtain ⟨g, hg, hd⟩ := traced_dir hX
    have := dir_deriv (y := fun j : Fin (n + 1) ⊕ Fin 7 => if j = Sum.inr k then (1:ℝ) else 0) (D := 0) hd
      (by simp only [hF]; exact hasDerivAt_const _ _)
    refine (hg _).of_eq ?_
    simpa using this
  rw [e]
  have hc : (Sum.inr 1 : Fin (n + 1) ⊕ Fin 7) ≠ Sum.inr k := fun h => hk (Sum.inr.inj h).symm
  refine ⟨fun h0 => key ((h.1 h0).weaken fun _ => ⟨trivial, st _, st _, st _, st _, st _, st _⟩) ?_,
    key (h.2.1.weaken fun _ => ⟨trivial, st _, st _, st _, st _, st _, st _⟩) ?_,
    key (h.2.2.1.weaken fun _ => ⟨trivial, st _, st _, st _, st _, st _, st _⟩) ?_⟩ <;>
  · intro y t
    simp [hc]

/-- C151: ... although moving an edge does matter: where it crosses a wavelength of the spectrum, the equivalent width jumps. -/
theorem C151_edge_jump (svd : ∀ A : Matrix (Fin 6) (Fin 3) ℝ, Svd A) :
    ¬ ContinuousAt (fun lhi => (ew_kernel (jax_lstsq (default_rcond (2 ^ (-52:ℤ)) 6 3) svd) ewWave (fun i => 1 + ewLine i) 3 3.5 lhi 1 2 5 6).1) 4 := by
  have val : ∀ lhi, (ew_kernel (jax_lstsq (default_rcond (2 ^ (-52:ℤ)) 6 3) svd) ewWave (fun i => 1 + ewLine i) 3 3.5 lhi 1 2 5 6).1 =
      Utils.trapz (n := 5) ewWave (fun i => open Classical in if 3 ≤ ewWave i ∧ ewWave i ≤ lhi then ewLine i else 0) := by
    intro lhi
    have h1 := (C116_float64 (n := 5) svd ewSolver_spec (by norm_num) (wave := ewWave) (a := 1) (b := 2) (c := 5) (d := 6) (X := 6) (by norm_num)
      (fun i hi => by rcases hi with h | h <;> rw [abs_of_nonneg (by linarith [h.1])] <;> linarith [h.2])
      (by
        refine ⟨0, 1, 4, ?_⟩
        show InWindows 1 2 5 6 1 ∧ InWindows 1 2 5 6 2 ∧ InWindows 1 2 5 6 5 ∧ (6:ℝ) / 1000 ≤ |(1 : ℝ) - 2| ∧ (6:ℝ) / 1000 ≤ |(2 : ℝ) - 5| ∧ (6:ℝ) / 1000 ≤ |(1 : ℝ) - 5|
        unfold InWindows; norm_num [abs_of_neg]) (fun i => 1 + ewLine i) 3 3.5 lhi).2
    rw [h1]
    have h2 := C62_line_on_continuum (n := 5) ewSolver_spec (wave := ewWave) (line := ewLine) 3 3.5 lhi (q0 := 1) (q1 := 0) (q2 := 0) ewLine_zero ewWave_three
    simp only [zero_mul, add_zero, div_one] at h2
    rw [h2]
  simp only [val]
  have sum : ∀ y : Fin 6 → ℝ, Utils.trapz (n := 5) ewWave y = (y 0 + 2 * y 1 + 2 * y 2 + 2 * y 3 + 2 * y 4 + y 5) / 2 := by
    intro y
    rw [trapz_eq]
    simp only [Fin.sum_univ_five]
    show ((2:ℝ) - 1) * (y 0 + y 1) / 2 + (3 - 2) * (y 1 + y 2) / 2 + (4 - 3) * (y 2 + y 3) / 2 + (5 - 4) * (y 3 + y 4) / 2 + (6 - 5) * (y 4 + y 5) / 2 = _
    ring
  have a4 : Utils.trapz (n := 5) ewWave (fun i => open Classical in if 3 ≤ ewWave i ∧ ewWave i ≤ 4 then ewLine i else 0) = 5 := by
    rw [sum]
    simp [ewWave, ewLine]; norm_num
  have b4 : ∀ lhi, 3 ≤ lhi → lhi < 4 → Utils.trapz (n := 5) ewWave (fun i => open Classical in if 3 ≤ ewWave i ∧ ewWave i ≤ lhi then ewLine i else 0) = 3 := by
    intro lhi h1 h2
    rw [sum]
    have e4 : ¬ (4:ℝ) ≤ lhi := not_le.2 h2
    simp [ewWave, ewLine, h1, e4]
    norm_num
  intro hc
  have h1 : Tendsto (fun k : ℕ => (4:ℝ) - 1 / ((k:ℝ) + 1)) atTop (𝓝 4) := by
    simpa using (tendsto_one_div_add_atTop_nhds_zero_nat (𝕜 := ℝ)).const_sub 4
  have h2 := hc.tendsto.comp h1
  rw [a4] at h2
  have h3 : Tendsto (fun _ : ℕ => (3:ℝ)) atTop (𝓝 5) := by
    refine h2.congr fun k => ?_
    refine b4 _ ?_ ?_
    · have : 1 / ((k:ℝ) + 1) ≤ 1 := by rw [div_le_one (by positivity)]; linarith [(Nat.cast_nonneg k : (0:ℝ) ≤ k)]
      linarith
    · have : 0 < 1 / ((k:ℝ) + 1) := by positivity
      linarith
  have := tendsto_nhds_unique h3 tendsto_const_nhds
  norm_num at this
end edges

/-! ### no continuum -/

/-- C151: **where the continuum at the line is zero, the gradient is nan**: then `jax.grad` of the equivalent width is nan in every pixel outside the line
window (at least two samples, at distinct wavelengths). -/
theorem C151_zero_continuum_nan {rcond : ℝ} {svd : ∀ A : Matrix (Fin (n + 2)) (Fin 3) ℝ, Svd A} {wave flux : Fin (n + 2) → ℝ} {llo lmid lhi a b c d : ℝ}
    (hne : ∃ i, InWindows a b c d (wave i) ∧ wave i ≠ 0) (hw : StrictMono wave)
    (h0 : (continuum_line_decomp_kern (jax_lstsq rcond svd) wave flux llo lmid lhi a b c d).2.2.1 = 0)
    {i : Fin (n + 2)} (hi : ¬ (llo ≤ wave i ∧ wave i ≤ lhi)) :
    (ewRec rcond svd wave flux llo lmid lhi a b c d).1.grad i = nan := by
  obtain ⟨-, -, h3⟩ := traced_flux (rcond := rcond) (svd := svd) (flux := flux) (llo := llo) (lmid := lmid) (lhi := lhi) hne
  have hco : Rep (ewRec rcond svd wave flux llo lmid lhi a b c d).2.2.1.v 0 := by
    have := h3.rep
    simp only [h0] at this
    exact this
  set v : Fin (n + 2) → ℝ := fun j => Gen.get_integration_weights (wave j) (Flt.lit llo : Rv (Fin (n + 2))) (Flt.lit lhi) with hv
  have v0 : v i = 0 := by
    rw [hv]
    show Gen.get_integration_weights (wave i) (Flt.lit llo : Rv (Fin (n + 2))) (Flt.lit lhi) = 0
    rw [gen_intw (s := True) (θ := flux) (wave i) (Traced.lit llo) (Traced.lit lhi)]
    unfold get_integration_weights
    simp only [ge_iff_le]
    rw [if_neg hi]
  set S := Gen.trapz (fun j => (Flt.lit (wave j) : Rv (Fin (n + 2)))) (fun j => Flt.lit (v j) * recFlux flux j) with hS
  have spec : ∀ s, S.back (inf s) i = nan := by
    intro s
    -- one of the trapezoids next to the pixel
    have cell : ∃ j : Fin (n + 1), i = j.succ ∨ i = j.castSucc := by
      rcases Fin.eq_castSucc_or_eq_last i with ⟨j, h⟩ | h
      · exact ⟨j, Or.inr h⟩
      · exact ⟨Fin.last n, Or.inl (by rw [h]; rfl)⟩
    obtain ⟨j, hj⟩ := cell
    show (0 : XF) + XF.sum (fun j : Fin (n + 1) => _) = nan
    have hd : Rep (fin (wave j.succ) - fin (wave j.castSucc)) (wave j.succ - wave j.castSucc) := (Rep.fin _).sub (Rep.fin _)
    have hpos : wave j.succ - wave j.castSucc ≠ 0 := by
      have := hw j.castSucc_lt_succ
      exact (sub_pos.2 this).ne'
    rw [XF.sum_nan (i := j), add_nan]
    show (_ : XF) + (((_ : XF) + (recFlux flux j.succ).back (inf s * fin 0.5 * (fin (wave j.succ) - fin (wave j.castSucc)) * fin (v j.succ)) i) +
      ((_ : XF) + (recFlux flux j.castSucc).back (inf s * fin 0.5 * (fin (wave j.succ) - fin (wave j.castSucc)) * fin (v j.castSucc)) i)) = nan
    rw [(Rep.fin 0.5).inf_mul (by norm_num), hd.inf_mul hpos]
    rcases hj with hj | hj
    · rw [← hj, v0, (Rep.fin 0).inf_mul_zero]
      show (_ : XF) + (((_ : XF) + (if i = i then nan else 0)) + _) = nan
      rw [if_pos rfl]; simp only [add_nan, nan_add]
    · rw [← hj, v0, (Rep.fin 0).inf_mul_zero]
      show (_ : XF) + ((_ : XF) + ((_ : XF) + (if i = i then nan else 0))) = nan
      rw [if_pos rfl]; simp only [add_nan, nan_add]
  show ((S.back (1 / (ewRec rcond svd wave flux llo lmid lhi a b c d).2.2.1.v) i + _) + _ : XF) = nan
  have : ∃ s, (1 : XF) / (ewRec rcond svd wave flux llo lmid lhi a b c d).2.2.1.v = inf s := by
    have := (Rep.fin 1).div_zero hco
    rw [if_neg one_ne_zero] at this
    exact ⟨_, this⟩
  obtain ⟨s, hs⟩ := this
  rw [hs, spec s, nan_add, nan_add]

/-! ## The theorems applied -/

lemma ewWave_nonzero : ∃ i : Fin 6, InWindows 1 2 5 6 (ewWave i) ∧ ewWave i ≠ 0 := by
  refine ⟨0, ?_⟩
  show InWindows 1 2 5 6 1 ∧ (1:ℝ) ≠ 0
  unfold InWindows; norm_num

lemma ewWave_strictMono : StrictMono ewWave := by
  rw [Fin.strictMono_iff_lt_succ]
  intro i
  fin_cases i
  · show (1:ℝ) < 2; norm_num
  · show (2:ℝ) < 3; norm_num
  · show (3:ℝ) < 4; norm_num
  · show (4:ℝ) < 5; norm_num
  · show (5:ℝ) < 6; norm_num

/-- a spectrum, an emission line on a flat continuum, meets the hypotheses: its continuum at the line is 1 -/
lemma ew_case (svd : ∀ A : Matrix (Fin 6) (Fin 3) ℝ, Svd A) :
    (continuum_line_decomp_kern (n := 5) (jax_lstsq (default_rcond (2 ^ (-52:ℤ)) 6 3) svd) ewWave (fun i => 1 + ewLine i) 3 3.5 4 1 2 5 6).2.2.1 = 1 := by
  have h1 := (C116_float64 (n := 5) svd ewSolver_spec (by norm_num) (wave := ewWave) (a := 1) (b := 2) (c := 5) (d := 6) (X := 6) (by norm_num)
    (fun i hi => by rcases hi with h | h <;> rw [abs_of_nonneg (by linarith [h.1])] <;> linarith [h.2])
    (by
      refine ⟨0, 1, 4, ?_⟩
      show InWindows 1 2 5 6 1 ∧ InWindows 1 2 5 6 2 ∧ InWindows 1 2 5 6 5 ∧ (6:ℝ) / 1000 ≤ |(1 : ℝ) - 2| ∧ (6:ℝ) / 1000 ≤ |(2 : ℝ) - 5| ∧ (6:ℝ) / 1000 ≤ |(1 : ℝ) - 5|
      unfold InWindows; norm_num [abs_of_neg]) (fun i => 1 + ewLine i) 3 3.5 4).1
  rw [h1]
  have := C62_recovers_quadratic (n := 5) ewSolver_spec (wave := ewWave) (flux := fun i => 1 + ewLine i) 3 3.5 4 (q0 := 1) (q1 := 0) (q2 := 0)
    (fun i h => by rw [ewLine_zero i h]; ring) ewWave_three
  simp only at this
  rw [this.2.1]; norm_num

example (svd : ∀ A : Matrix (Fin 6) (Fin 3) ℝ, Svd A) :=
  (C151_flux_jax_grad (n := 5) (svd := svd) (rcond := default_rcond (2 ^ (-52:ℤ)) 6 3) (flux := fun i => 1 + ewLine i) (llo := 3) (lmid := 3.5) (lhi := 4)
    ewWave_nonzero).1 (by rw [ew_case]; norm_num)
example (svd : ∀ A : Matrix (Fin 6) (Fin 3) ℝ, Svd A) :=
  (C151_euler (n := 5) (svd := svd) (rcond := default_rcond (2 ^ (-52:ℤ)) 6 3) (flux := fun i => 1 + ewLine i) (llo := 3) (lmid := 3.5) (lhi := 4)
    ewWave_nonzero).1 (by rw [ew_case]; norm_num)
/-- the pixel at wavelength 3 -/
example (svd : ∀ A : Matrix (Fin 6) (Fin 3) ℝ, Svd A) :=
  C151_line_pixel (n := 5) (svd := svd) (rcond := default_rcond (2 ^ (-52:ℤ)) 6 3) (flux := fun i => 1 + ewLine i) (llo := 3) (lmid := 3.5) (lhi := 4)
    ewWave_nonzero (i := 2) (by show ¬ InWindows 1 2 5 6 3; unfold InWindows; norm_num) (by rw [ew_case]; norm_num)
example (svd : ∀ A : Matrix (Fin 6) (Fin 3) ℝ, Svd A) :=
  (C151_edges_no_grad (n := 5) (svd := svd) (rcond := default_rcond (2 ^ (-52:ℤ)) 6 3) (wave := ewWave)
    (Sum.elim (fun i => 1 + ewLine i) (fun k : Fin 7 => if k = 0 then 3 else if k = 1 then 3.5 else if k = 2 then 4 else if k = 3 then 1 else
      if k = 4 then 2 else if k = 5 then 5 else 6)) (by simpa using ewWave_nonzero) (k := 2) (by decide)).2.1
/-- a dark spectrum -/
example (svd : ∀ A : Matrix (Fin 6) (Fin 3) ℝ, Svd A) :=
  C151_zero_continuum_nan (n := 4) (svd := svd) (rcond := default_rcond (2 ^ (-52:ℤ)) 6 3) (flux := fun _ => 0) (llo := 3) (lmid := 3.5) (lhi := 4)
    ewWave_nonzero ewWave_strictMono
    (by
      have := (jax_decomp_linear (n := 5) (rcond := default_rcond (2 ^ (-52:ℤ)) 6 3) (svd := svd) (wave := ewWave) (llo := 3) (lmid := 3.5) (lhi := 4)
        (a := 1) (b := 2) (c := 5) (d := 6) (fun _ => 0) (fun _ => 0) 0 0).2
      simpa using this)
    (i := 1) (by show ¬ ((3:ℝ) ≤ 2 ∧ (2:ℝ) ≤ 4); norm_num)

end Dsps.Props
