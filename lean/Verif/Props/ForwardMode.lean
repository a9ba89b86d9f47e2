import Verif.Props.NanGrad
import Verif.Props.GradPipeline
import Verif.Props.GradInverse

/-! C159: forward-mode differentiation (`jax.jvp`, `jax.jacfwd`). That tangents are finite and exact wherever `jax.grad` is is part of `Traced` and `GradOk`, and so of C100 to C109, C150 and C151; here: the two modes agree also at
kinks, and forward mode is finite and exact at the points where `jax.grad` is nan because of a branch of `jnp.where` that is not taken, or because of other entries of an array. -/
namespace Dsps.Props
open Rev XF Dsps.Lemmas Dsps.Constants Dsps.StellarAgeWeights Spec Topology Filter

variable {ι : Type} [Fintype ι] {s : Prop} {θ : ι → ℝ} {a b c : Rv ι} {f g : (ι → ℝ) → ℝ} {n m k w : ℕ}

/-- **Specification.** `jax.jvp` returns the value and, in every direction, a finite derivative; provided `s` holds, it is the derivative of `f` in that direction -/
def JvpOk (s : Prop) (x : Rv ι) (f : (ι → ℝ) → ℝ) (θ : ι → ℝ) : Prop :=
  Rep x.v (f θ) ∧ ∀ dir, ∃ d, Rep (x.jvp dir) d ∧ (s → HasDerivAt (fun t => f (θ + t • dir)) d (0:ℝ))

/-- C159: **forward and reverse mode agree** for every number for which the gradient theorems hold, also where it has no derivative (at a kink both take the same one-sided slope): the tangent in any direction is the
scalar product of the gradient with the direction. -/
theorem C159_modes_agree (h : Traced s a f θ) : ∃ G : ι → ℝ, (∀ i, Rep (a.grad i) (G i)) ∧ ∀ dir, Rep (a.jvp dir) (∑ i, G i * dir i) := by
  obtain ⟨G, -, h2, h3, -⟩ := h
  exact ⟨G, fun i => (h2 1 1 (Rep.fin 1) i).of_eq (one_mul _), h3⟩

/-- C159: for instance the observed magnitude of a galaxy, for star formation rates at the floor and without dust too. -/
theorem C159_galaxy_modes_agree [Jnp.Dtype] {t : Fin (n + 2) → ℝ} {ssp_lgmet : Fin (k + 3) → ℝ} {ssp_lg_age : Fin (m + 3) → ℝ} {wave k_lambda : Fin (w + 2) → ℝ}
    {ssp_flux : Fin (k + 3) → Fin (m + 3) → Fin (w + 2) → ℝ} {t_obs sfr_min z Om0 w0 wa h : ℝ} {q : ℕ} {fw ft : Fin (q + 2) → ℝ}
    (H : GalaxyInputs t ssp_lgmet ssp_lg_age wave ssp_flux t_obs sfr_min k_lambda fw ft z Om0 h)
    (S : Fin (n + 2) → ℝ) (gal_lgmet scatter av : ℝ) (hpos : 0 < scatter) :
    let M := Gen.galaxyMag (fun j => Flt.lit (t j)) (fun j => Rv.var (Sum.inl j) (fin (S j))) (Rv.var (Sum.inr (0 : Fin 3)) (fin gal_lgmet))
        (Rv.var (Sum.inr 1) (fin scatter)) (Rv.var (Sum.inr 2) (fin av)) (fun j => Flt.lit (ssp_lgmet j)) (fun j => Flt.lit (ssp_lg_age j))
        (fun j => Flt.lit (wave j)) (fun i j l => Flt.lit (ssp_flux i j l)) (Flt.lit t_obs) (Flt.lit sfr_min) (fun j => Flt.lit (k_lambda j))
        (fun j => Flt.lit (fw j)) (fun j => Flt.lit (ft j)) (Flt.lit z) (Flt.lit Om0) (Flt.lit w0) (Flt.lit wa) (Flt.lit h)
    ∃ G : Fin (n + 2) ⊕ Fin 3 → ℝ, (∀ i, Rep (M.grad i) (G i)) ∧ ∀ dir, Rep (M.jvp dir) (∑ i, G i * dir i) :=
  have hv : ∀ i, Traced True (Rv.var (Sum.inr i) (fin (![gal_lgmet, scatter, av] i))) (fun θ : Fin (n + 2) ⊕ Fin 3 → ℝ => θ (Sum.inr i)) (Sum.elim S ![gal_lgmet, scatter, av]) :=
    fun i => Traced.var (θ := (Sum.elim S ![gal_lgmet, scatter, av] : Fin (n + 2) ⊕ Fin 3 → ℝ)) (Sum.inr i)
  C159_modes_agree (C109_galaxy_mag_grad w0 wa H (θ := Sum.elim S ![gal_lgmet, scatter, av]) (S := fun θ j => θ (Sum.inl j)) (fun j => Traced.var (θ := (Sum.elim S ![gal_lgmet, scatter, av] : Fin (n + 2) ⊕ Fin 3 → ℝ)) (Sum.inl j)) (hv 0) (hv 1) (hv 2) hpos)

/-! ## numbers that are good in forward mode only -/

/-- finite value, finite and (if `s`) exact tangents; nothing about back-propagation -/
def Fwd (s : Prop) (x : Rv ι) (f : (ι → ℝ) → ℝ) (θ : ι → ℝ) : Prop :=
  ∃ g : ι → ℝ, Rep x.v (f θ) ∧ (∀ dir, Rep (x.tan dir) (∑ i, g i * dir i)) ∧ (s → HasFDerivAt f (lin g) θ)

lemma fwd_of_traced (h : Traced s a f θ) : Fwd s a f θ := let ⟨G, h1, _, h3, h4⟩ := h; ⟨G, h1, h3, h4⟩

lemma Fwd.rep (h : Fwd s a f θ) : Rep a.v (f θ) := h.choose_spec.1

lemma Fwd.weaken {s' : Prop} (h : Fwd s a f θ) (hs : s' → s) : Fwd s' a f θ := let ⟨G, h1, h3, h4⟩ := h; ⟨G, h1, h3, fun x => h4 (hs x)⟩

lemma Fwd.congr (h : Fwd s a f θ) (e : f = g) : Fwd s a g θ := e ▸ h

/-- a number whose tangents vanish -/
lemma fwd_still {x : ℝ} (h1 : Rep a.v x) (h2 : ∀ dir, Rep (a.tan dir) 0) : Fwd s a (fun _ => x) θ :=
  ⟨fun _ => 0, h1, fun dir => (h2 dir).of_eq (by simp), fun _ => by rw [lin_zero]; exact hasFDerivAt_const x θ⟩

lemma Fwd.mul (ha : Fwd s a f θ) (hb : Fwd s b g θ) : Fwd s (a * b) (fun θ => f θ * g θ) θ := by
  obtain ⟨G, a1, a2, a3⟩ := ha
  obtain ⟨H, b1, b2, b3⟩ := hb
  refine ⟨fun i => f θ * H i + g θ * G i, a1.mul b1,
    fun e => (((a2 e).mul b1).add ((b2 e).mul a1)).of_eq (by simp only [add_mul, Finset.sum_add_distrib, mul_assoc, ← Finset.mul_sum]; ring), fun hs => ?_⟩
  rw [lin_add, lin_smul, lin_smul]
  exact (a3 hs).mul (b3 hs)

lemma Fwd.div (ha : Fwd s a f θ) (hb : Fwd s b g θ) (h0 : g θ ≠ 0) : Fwd s (a / b) (fun θ => f θ / g θ) θ := by
  obtain ⟨G, a1, a2, a3⟩ := ha
  obtain ⟨H, b1, b2, b3⟩ := hb
  refine ⟨fun i => (g θ)⁻¹ * G i + (f θ * -(g θ ^ 2)⁻¹) * H i, a1.div b1 h0, fun e => ?_, fun hs => ?_⟩
  · refine (((a2 e).div b1 h0).add (((b2 e).neg.mul a1).mul ((Rep.fin 1).div (b1.mul b1) (mul_ne_zero h0 h0)))).of_eq ?_
    simp only [add_mul, Finset.sum_add_distrib, mul_assoc, ← Finset.mul_sum]
    field_simp
  · rw [lin_add, lin_smul, lin_smul]
    have h1 : HasFDerivAt (fun θ => (g θ)⁻¹) (-(g θ ^ 2)⁻¹ • lin H) θ := (hasDerivAt_inv h0).comp_hasFDerivAt θ (b3 hs)
    have h2 := (a3 hs).mul h1
    rw [smul_smul, add_comm] at h2
    exact h2

lemma Fwd.sum {xs : Fin n → Rv ι} {F : Fin n → (ι → ℝ) → ℝ} (h : ∀ j, Fwd s (xs j) (F j) θ) : Fwd s (Flt.sum xs) (fun θ => Jnp.sum fun j => F j θ) θ := by
  choose G h1 h2 h3 using h
  refine ⟨fun i => ∑ j, G j i, rep_sum h1, fun e => ?_, fun hs => ?_⟩
  · refine (rep_sum fun j => h2 j e).of_eq ?_
    simp only [Jnp.sum, Finset.sum_mul]
    exact Finset.sum_comm
  · have e : lin (fun i => ∑ j, G j i) = ∑ j, lin (G j) := by
      ext v; simp [Rev.lin_apply, ContinuousLinearMap.sum_apply, Finset.sum_mul]
      exact Finset.sum_comm
    rw [e]
    unfold Jnp.sum
    exact HasFDerivAt.fun_sum fun j _ => h3 j hs

lemma Fwd.jvpOk (h : Fwd s a f θ) : JvpOk s a f θ := by
  obtain ⟨G, h1, ht, h3⟩ := h
  refine ⟨h1, fun dir => ⟨_, ht dir, fun hs => ?_⟩⟩
  have hl : HasDerivAt (fun t : ℝ => θ + t • dir) dir 0 := by
    have := ((hasDerivAt_id (0:ℝ)).smul_const dir).const_add θ
    simpa using this
  have hf : HasFDerivAt f (lin G) (θ + (0:ℝ) • dir) := by rw [zero_smul, add_zero]; exact h3 hs
  have := hf.comp_hasDerivAt (0:ℝ) hl
  rwa [Rev.lin_apply] at this

/-! ## zero scatter -/

omit [Fintype ι] in
/-- the kernel of zero width is constant, away from its centre, and forward mode sees it -/
lemma tw_still {x u : ℝ} (ha : Rep a.v x) (hb : Rep b.v u) (hc : Rep c.v 0) (hne : x ≠ u) (dir : ι → ℝ) : Rep ((Gen.tw_cuml_kern a b c).tan dir) 0 := by
  classical
  obtain ⟨z, hz⟩ : ∃ z, z = (a - b) / c := ⟨_, rfl⟩
  have hzv : ∃ s, z.v = inf s := by
    have e : z.v = (a.v - b.v) / c.v := by rw [hz]; rfl
    rw [e, (ha.sub hb).div_zero hc, if_neg (sub_ne_zero.mpr hne)]
    exact ⟨_, rfl⟩
  obtain ⟨s, hs⟩ := hzv
  unfold Gen.tw_cuml_kern
  simp only
  rw [← hz]
  show Rep (if Gen.lt (Flt.lit 3) z then (0 : XF) else if Gen.lt z (-(Flt.lit 3)) then (0 : XF) else _) 0
  cases s
  · have h3 : Gen.lt (Flt.lit 3) z := by
      show fin 3 < z.v
      rw [hs]; show XF.lt (fin 3) (inf false); simp [XF.lt]
    rw [if_pos h3]; exact Rep.fin 0
  · have h3 : Gen.lt z (-(Flt.lit 3)) := by
      show z.v < -(fin 3)
      rw [hs]; show XF.lt (inf true) (XF.neg (fin 3)); simp [XF.neg, XF.lt]
    rw [if_pos h3]
    split_ifs <;> exact Rep.fin 0

omit [Fintype ι] in
lemma tw_value {x u : ℝ} (ha : Rep a.v x) (hb : Rep b.v u) (hc : Rep c.v 0) (hne : x ≠ u) : ∃ y, Rep (Gen.tw_cuml_kern a b c).v y := by
  classical
  obtain ⟨z, hz⟩ : ∃ z, z = (a - b) / c := ⟨_, rfl⟩
  have hzv : ∃ s, z.v = inf s := by
    have e : z.v = (a.v - b.v) / c.v := by rw [hz]; rfl
    rw [e, (ha.sub hb).div_zero hc, if_neg (sub_ne_zero.mpr hne)]
    exact ⟨_, rfl⟩
  obtain ⟨s, hs⟩ := hzv
  unfold Gen.tw_cuml_kern
  simp only
  rw [← hz]
  show ∃ y, Rep (if Gen.lt (Flt.lit 3) z then fin 1 else if Gen.lt z (-(Flt.lit 3)) then fin 0 else _) y
  cases s
  · have h3 : Gen.lt (Flt.lit 3) z := by
      show fin 3 < z.v
      rw [hs]; show XF.lt (fin 3) (inf false); simp [XF.lt]
    rw [if_pos h3]; exact ⟨_, Rep.fin 1⟩
  · have h3 : Gen.lt z (-(Flt.lit 3)) := by
      show z.v < -(fin 3)
      rw [hs]; show XF.lt (inf true) (XF.neg (fin 3)); simp [XF.neg, XF.lt]
    rw [if_pos h3]
    split_ifs
    · exact ⟨_, Rep.fin 1⟩
    · exact ⟨_, Rep.fin 0⟩

omit [Fintype ι] in
lemma tan_oneHot (j i : Fin n) (dir : ι → ℝ) : Rep ((Function.update (fun _ => (Flt.lit 0 : Rv ι)) j (Flt.lit 1) i).tan dir) 0 := by
  by_cases h : i = j
  · subst h; rw [Function.update_self]; exact Rep.fin 0
  · rw [Function.update_of_ne h]; exact Rep.fin 0

omit [Fintype ι] in
lemma tan_sel {p : Prop} {a b : Rv ι} {dir : ι → ℝ} (ha : Rep (a.tan dir) 0) (hb : Rep (b.tan dir) 0) : Rep ((Flt.sel p a b : Rv ι).tan dir) 0 := by
  classical
  show Rep (if p then a.tan dir else b.tan dir) 0
  split_ifs <;> assumption

omit [Fintype ι] in
lemma weights_still {x : ℝ} (ha : Rep a.v x) (hc : Rep c.v 0) {E : Fin (n + 2) → Rv ι} {e : Fin (n + 2) → ℝ} (hE : ∀ j, Rep (E j).v (e j)) (hx : ∀ j, x ≠ e j)
    (j : Fin (n + 1)) (dir : ι → ℝ) : Rep ((Gen.get_lgmet_weights_singlegal a c E j).tan dir) 0 := by
  classical
  set H := Gen.triweighted_histogram a c E with hH
  have ht : ∀ i, Rep ((H i).tan dir) 0 := fun i => by
    have := (tw_still ha (hE i.castSucc) hc (hx _) dir).add (tw_still ha (hE i.succ) hc (hx _) dir).neg
    exact this.of_eq (by ring)
  have hv : ∀ i, ∃ y, Rep (H i).v y := fun i => by
    obtain ⟨y1, h1⟩ := tw_value ha (hE i.castSucc) hc (hx _)
    obtain ⟨y2, h2⟩ := tw_value ha (hE i.succ) hc (hx _)
    exact ⟨_, h1.sub h2⟩
  choose y hy using hv
  have hS : Rep ((Flt.sum H : Rv ι).v) (Jnp.sum y) := rep_sum hy
  have hSt : Rep ((Flt.sum H : Rv ι).tan dir) 0 := (rep_sum ht).of_eq (by simp [Jnp.sum])
  unfold Gen.get_lgmet_weights_singlegal Gen.fill_empty_weights_singlepoint
  simp only
  rw [← hH]
  refine tan_sel (tan_oneHot _ _ _) (tan_sel (tan_oneHot _ _ _) ?_)
  obtain ⟨T, hT⟩ : ∃ T, T = (Flt.sel (Gen.eqv (Flt.sum H) (Flt.lit 0)) (Flt.lit 1) (Flt.sum H) : Rv ι) := ⟨_, rfl⟩
  rw [← hT]
  have hTt : Rep (T.tan dir) 0 := by rw [hT]; exact tan_sel (Rep.fin 0) hSt
  have hTv : ∃ q, q ≠ 0 ∧ Rep T.v q := by
    rw [hT]
    show ∃ q, q ≠ 0 ∧ Rep (if Gen.eqv (Flt.sum H) (Flt.lit 0) then fin 1 else (Flt.sum H : Rv ι).v) q
    by_cases h : Gen.eqv (Flt.sum H) (Flt.lit 0 : Rv ι)
    · rw [if_pos h]; exact ⟨1, one_ne_zero, Rep.fin 1⟩
    · rw [if_neg h]
      refine ⟨_, fun h0 => h ?_, hS⟩
      exact (hS.eqv_iff (Rep.fin 0)).2 h0
  obtain ⟨q, hq, hTv⟩ := hTv
  have := ((ht j).div hTv hq).add ((hTt.neg.mul (hy j)).mul ((Rep.fin 1).div (hTv.mul hTv) (mul_ne_zero hq hq)))
  exact this.of_eq (by ring)

/-- the sign of a zero bin edge does not matter for zero scatter -/
lemma edges_sign {x : ℝ} {E : Fin (n + 2) → XF} {e : Fin (n + 2) → ℝ} (hE : ∀ j, Rep (E j) (e j)) (hx : ∀ j, x ≠ e j) :
    XFUtils.get_lgmet_weights_singlegal (fin x) (fin 0) E = XFUtils.get_lgmet_weights_singlegal (fin x) (fin 0) (fun j => fin (e j)) := by
  have k : ∀ j, fin x - E j = fin x - fin (e j) := fun j => by
    rcases hE j with h | ⟨h, h0⟩
    · rw [h]
    · have h1 := (Rep.fin x).sub (hE j)
      have h2 := (Rep.fin x).sub (Rep.fin (e j))
      have hne : x - e j ≠ 0 := sub_ne_zero.mpr (hx j)
      rcases h1 with h1 | ⟨-, h1⟩
      · rcases h2 with h2 | ⟨-, h2⟩
        · rw [h1, h2]
        · exact absurd h2 hne
      · exact absurd h1 hne
  have kk : ∀ j, XFUtils.tw_cuml_kern (fin x) (E j) (fin 0) = XFUtils.tw_cuml_kern (fin x) (fin (e j)) (fin 0) := fun j => by
    unfold XFUtils.tw_cuml_kern; rw [k j]
  have l1 : (fin x < E 0) = (fin x < fin (e 0)) := propext (((Rep.fin x).lt_iff (hE 0)).trans ((Rep.fin x).lt_iff (Rep.fin _)).symm)
  have l2 : (E (Fin.last (n + 1)) < fin x) = (fin (e (Fin.last (n + 1))) < fin x) := propext (((hE _).lt_iff (Rep.fin x)).trans ((Rep.fin _).lt_iff (Rep.fin _)).symm)
  have hH : XFUtils.triweighted_histogram (fin x) (fin 0) E = XFUtils.triweighted_histogram (fin x) (fin 0) fun j => fin (e j) := by
    unfold XFUtils.triweighted_histogram XFUtils.triweighted_histogram_kernel
    simp only [kk]
  unfold XFUtils.get_lgmet_weights_singlegal XFUtils.fill_empty_weights_singlepoint
  dsimp only
  rw [hH, l1, l2]

/-- C159: **zero scatter in forward mode.** With a metallicity scatter of exactly zero, and the metallicity not on a bin edge, `jax.jvp` of every metallicity weight is 0 in every direction, which is right: near this
metallicity the weights do not change. `jax.grad` gives nan there. -/
theorem C159_zero_scatter_weights (x : ℝ) (e : Fin (n + 2) → ℝ) (he : StrictMono e) (hx : ∀ j, x ≠ e j) (j : Fin (n + 1)) :
    let W := fun x => Gen.get_lgmet_weights_singlegal (Rv.var (0 : Fin 2) (fin x)) (Rv.var 1 (fin 0)) (fun j => Flt.lit (e j)) j
    (∀ dir, Rep ((W x).jvp dir) 0) ∧ (∃ v, ∀ᶠ x' in 𝓝 x, Rep (W x').v v) ∧ (W x).grad 0 = nan ∧ (W x).grad 1 = nan := by
  intro W
  refine ⟨fun dir => weights_still (Rep.fin x) (Rep.fin 0) (fun j => Rep.fin (e j)) hx j dir, ?_, (C106_zero_scatter_weights x e he hx j).2⟩
  classical
  refine ⟨if (j = 0 ∨ e j.castSucc < x) ∧ (j = Fin.last n ∨ x < e j.succ) then 1 else 0, ?_⟩
  have ne : ∀ i, ∀ᶠ x' in 𝓝 x, (x' ≠ e i ∧ (e i < x' ↔ e i < x) ∧ (x' < e i ↔ x < e i)) := fun i => by
    rcases lt_or_gt_of_ne (hx i) with h | h
    · filter_upwards [eventually_lt_nhds h] with y hy
      exact ⟨hy.ne, iff_of_false hy.not_gt h.not_gt, iff_of_true hy h⟩
    · filter_upwards [eventually_gt_nhds h] with y hy
      exact ⟨hy.ne', iff_of_true hy h, iff_of_false (not_lt.mpr hy.le) (not_lt.mpr h.le)⟩
  filter_upwards [eventually_all.mpr ne] with y hy
  have := (C106_zero_scatter_weights y e he (fun i => (hy i).1) j).1
  convert this using 2
  rw [(hy j.castSucc).2.1, (hy j.succ).2.2]

/-- C159: **the SED at zero scatter in forward mode.** With zero scatter and the metallicity inside the bin `b`, `jax.jvp` of every flux with respect to the star formation rates (`inl i`), the metallicity (`inr 0`) and the
scatter (`inr 1`) is finite, and exact if no star formation rate equals a floor: it is the derivative of the mass times the mean, over the age weights, of the spectra of this bin. `jax.grad` with respect to metallicity and
scatter gives nan. -/
theorem C159_zero_scatter_sed [Jnp.Dtype] (t S : Fin (n + 2) → ℝ) (gal_lgmet : ℝ) (z : Fin (k + 3) → ℝ) (A : Fin (m + 3) → ℝ)
    (flux : Fin (k + 3) → Fin (m + 3) → Fin w → ℝ) (t_obs sfr_min : ℝ) (ht : StrictMono t) (h0 : 0.001 < t 0) (hs : 0 < sfr_min)
    (hr : Jnp.Resolved fun i => Real.logb 10 (t i)) (hA : StrictMono A)
    (hyoung : t 0 < t_obs - (10:ℝ) ^ (get_lg_age_bin_edges A 0))
    (hold : t_obs - (10:ℝ) ^ (get_lg_age_bin_edges A (Fin.last (m + 3))) < t (Fin.last (n + 1)))
    (hmono : StrictMono (Utils.get_bin_edges z (-10) 10)) (b : Fin (k + 3)) (hb1 : Utils.get_bin_edges z (-10) 10 b.castSucc < gal_lgmet)
    (hb2 : gal_lgmet < Utils.get_bin_edges z (-10) 10 b.succ) (l : Fin w) :
    let sed := Gen.calc_rest_sed_sfh_table_lognormal_mdf (fun j => Flt.lit (t j)) (fun j => Rv.var (Sum.inl j) (fin (S j)))
        (Rv.var (Sum.inr (0 : Fin 2)) (fin gal_lgmet)) (Rv.var (Sum.inr 1) (fin 0)) (fun j => Flt.lit (z j))
        (fun j => Flt.lit (A j)) (fun i j l => Flt.lit (flux i j l)) (Flt.lit t_obs) (Flt.lit sfr_min) l
    JvpOk (∀ i, S i ≠ SFR_MIN ∧ S i ≠ sfr_min) sed
      (fun θ : Fin (n + 2) ⊕ Fin 2 → ℝ => (∑ j, flux b j l * calc_age_weights_from_sfh_table t (fun j => θ (Sum.inl j)) A t_obs SFR_MIN j) *
        massFormed t (fun j => θ (Sum.inl j)) sfr_min t_obs)
      (Sum.elim S ![gal_lgmet, 0]) ∧
    sed.grad (Sum.inr 0) = nan ∧ sed.grad (Sum.inr 1) = nan := by
  intro sed
  set e := Utils.get_bin_edges z (-10) 10 with he
  have hE := fun i => TV.edges (s := True) (θ := (Sum.elim S ![gal_lgmet, 0] : Fin (n + 2) ⊕ Fin 2 → ℝ)) (TV.lit (ι := Fin (n + 2) ⊕ Fin 2) z) (Traced.lit LGMET_LO) (Traced.lit LGMET_HI) i
  have hE' : ∀ j, Rep (Gen.get_bin_edges (fun j => (Flt.lit (z j) : Rv (Fin (n + 2) ⊕ Fin 2))) (Flt.lit LGMET_LO) (Flt.lit LGMET_HI) j).v (e j) := fun j => (hE j).rep.of_eq (by
    rw [he]; norm_num [LGMET_LO, LGMET_HI])
  have hx : ∀ j, gal_lgmet ≠ e j := fun j h => by
    rw [h] at hb1 hb2
    have a1 := hmono.lt_iff_lt.mp hb1
    have a2 := hmono.lt_iff_lt.mp hb2
    simp only [Fin.lt_def, Fin.val_castSucc, Fin.val_succ] at a1 a2
    omega
  have ind : ∀ i : Fin (k + 3), ((i = 0 ∨ e i.castSucc < gal_lgmet) ∧ (i = Fin.last (k + 2) ∨ gal_lgmet < e i.succ)) ↔ i = b := fun i => by
    constructor
    · rintro ⟨h1, h2⟩
      apply le_antisymm
      · by_contra hlt
        rcases h1 with h1 | h1
        · rw [h1] at hlt; exact hlt (Fin.zero_le _)
        · have := hmono.lt_iff_lt.mp (h1.trans hb2)
          simp only [Fin.lt_def, Fin.val_castSucc, Fin.val_succ, Fin.le_def] at this hlt
          omega
      · by_contra hlt
        rcases h2 with h2 | h2
        · rw [h2] at hlt; exact hlt (Fin.le_last _)
        · have := hmono.lt_iff_lt.mp (hb1.trans h2)
          simp only [Fin.lt_def, Fin.val_castSucc, Fin.val_succ, Fin.le_def] at this hlt
          omega
    · rintro rfl; exact ⟨Or.inr hb1, Or.inr hb2⟩
  set s := ∀ i, S i ≠ SFR_MIN ∧ S i ≠ sfr_min with hsdef
  have hSF : (0:ℝ) < SFR_MIN := by norm_num [SFR_MIN]
  have hS : ∀ j, Traced True (Rv.var (Sum.inl j) (fin (S j))) (fun θ : Fin (n + 2) ⊕ Fin 2 → ℝ => θ (Sum.inl j)) (Sum.elim S ![gal_lgmet, 0]) := fun j => Traced.var (θ := (Sum.elim S ![gal_lgmet, 0] : Fin (n + 2) ⊕ Fin 2 → ℝ)) (Sum.inl j)
  have hage := fun i => fwd_of_traced ((C101_age_weights_grad (θ := (Sum.elim S ![gal_lgmet, 0] : Fin (n + 2) ⊕ Fin 2 → ℝ)) (t := fun _ => t) (S := fun θ j => θ (Sum.inl j))
    (A := fun _ => A) (T := fun _ => t_obs) (c := fun _ => SFR_MIN) (fun _ => Traced.lit _) hS (fun _ => Traced.lit _) (Traced.lit _) (Traced.lit SFR_MIN) ht h0 hSF hr hA hyoung hold i).weaken
    (s' := s) fun h => ⟨fun i => (h i).1, Or.inl ⟨Fixed.const _, Fixed.const _, Fixed.const _⟩⟩)
  have hobs : 0 < t_obs := by
    have := Real.rpow_pos_of_pos (show (0:ℝ) < 10 by norm_num) (get_lg_age_bin_edges A 0)
    norm_num at h0
    linarith
  have hmass := fwd_of_traced ((traced_mstar_obs (s := True) (θ := (Sum.elim S ![gal_lgmet, 0] : Fin (n + 2) ⊕ Fin 2 → ℝ)) (t := fun _ => t) (S := fun θ j => θ (Sum.inl j)) (T := fun _ => t_obs)
    (c := fun _ => sfr_min) (fun _ => Traced.lit _) hS (Traced.lit _) (Traced.lit _) ht h0 hs hobs hr).weaken
    (s' := s) fun h => ⟨trivial, fun i => (h i).2, Or.inl ⟨Fixed.const _, Fixed.const _⟩⟩)
  have hage1 := C17_age_weights_sum t S A t_obs SFR_MIN hSF ht h0 hr hA hyoung hold
  have hmet : ∀ i, Fwd s (Gen.calc_lgmet_weights_from_lognormal_mdf (Rv.var (Sum.inr (0 : Fin 2)) (fin gal_lgmet)) (Rv.var (Sum.inr 1) (fin 0)) (fun j => Flt.lit (z j)) i)
      (fun _ : Fin (n + 2) ⊕ Fin 2 → ℝ => if i = b then 1 else 0) (Sum.elim S ![gal_lgmet, 0]) := fun i => by
    unfold Gen.calc_lgmet_weights_from_lognormal_mdf
    refine fwd_still ?_ fun dir => weights_still (Rep.fin gal_lgmet) (Rep.fin 0) hE' hx i dir
    rw [value_weights]
    show Rep (XFUtils.get_lgmet_weights_singlegal (fin gal_lgmet) (fin 0) _ i) _
    rw [edges_sign hE' hx]
    refine ((C79_zero_scatter gal_lgmet e hmono).2 hx i).of_eq ?_
    by_cases h : i = b
    · rw [if_pos h, if_pos ((ind i).2 h)]
    · rw [if_neg h, if_neg fun h' => h ((ind i).1 h')]
  have hw := fun i j => (hmet i).mul (hage j)
  have hone : ∀ θ : Fin (n + 2) ⊕ Fin 2 → ℝ, (Jnp.sum fun i => Jnp.sum fun j => (if i = b then (1:ℝ) else 0) * calc_age_weights_from_sfh_table t (fun j => θ (Sum.inl j)) A t_obs SFR_MIN j) = 1 := fun θ => by
    unfold Jnp.sum
    simp only [ite_mul, one_mul, zero_mul]
    rw [Finset.sum_eq_single b (fun i _ h => by simp [h]) (fun h => absurd (Finset.mem_univ b) h)]
    simp only [if_true]
    exact C17_age_weights_sum t (fun j => θ (Sum.inl j)) A t_obs SFR_MIN hSF ht h0 hr hA hyoung hold
  have htot := Fwd.sum fun i => Fwd.sum fun j => hw i j
  have hsed := (Fwd.sum fun i => Fwd.sum fun j => (fwd_of_traced (Traced.lit (s := s) (θ := (Sum.elim S ![gal_lgmet, 0] : Fin (n + 2) ⊕ Fin 2 → ℝ)) (flux i j l))).mul ((hw i j).div htot (by
    rw [hone]; exact one_ne_zero))).mul hmass
  refine ⟨Fwd.jvpOk (hsed.congr ?_), ?_⟩
  · funext θ
    rw [massFormed_eq]
    simp only [hone, div_one]
    refine congrArg₂ (· * ·) ?_ rfl
    unfold Jnp.sum
    simp only [ite_mul, one_mul, zero_mul, mul_ite, mul_zero]
    rw [Finset.sum_eq_single b (fun i _ h => by simp [h]) (fun h => absurd (Finset.mem_univ b) h)]
    simp only [if_true]
  · have key : ∀ i : Fin 2, NanBack (Sum.inr i) sed := fun i => by
      refine NanBack.mul_left (NanBack.sum (j := 0) (NanBack.sum (j := 0) (NanBack.mul_right (NanBack.div_left (NanBack.mul_left ?_)))))
      refine nanBack_weights (Rep.fin gal_lgmet) (Rep.fin 0) ?_ hE' 0
      fin_cases i
      · exact Or.inl rfl
      · exact Or.inr rfl
    exact ⟨key 0 1, key 1 1⟩

/-- C159: **a parameter on its bound in forward mode.** At `mzr_t0_slope_hi = 0.3`, where `jax.grad` of the other unbounded parameters is nan, `jax.jvp` is finite and exact. -/
theorem C159_mzr_unbounding (p : Fin 9 → ℝ) (hb : MzrAdmissible (Umzr.MZRParams.ofArray p)) (h3 : p 4 = 0.3) (i : Fin 9) (hi : i ≠ 4) :
    let r := Gen.get_unbounded_mzr_params (fun j => Rv.var j (fin (p j))) i
    JvpOk True r (fun p => (Umzr.get_unbounded_mzr_params (Umzr.MZRParams.ofArray p)).toArray i) p ∧ r.grad 4 = nan := by
  intro r
  refine ⟨?_, (C150_mzr_unbounding_nan p hb h3 i hi).2.1⟩
  have er : r = Flt.take (fun j => Gen.get_square_unbounded_param (Rv.var j (fin (p j))) (Umzr.MZR_PBDICT j)) i := Function.update_of_ne hi _ _
  have ef : (fun p => (Umzr.get_unbounded_mzr_params (Umzr.MZRParams.ofArray p)).toArray i) = fun q : Fin 9 → ℝ => Umzr.get_square_unbounded_param (q i) (Umzr.MZR_PBDICT i) := by
    funext q; fin_cases i <;> first | rfl | exact absurd rfl hi
  rw [er, ef]
  have := fwd_of_traced (traced_square (s := True) (p := fun p => p) (θ := p) (fun j => Traced.var j) hb i hi)
  exact Fwd.jvpOk (a := Flt.take _ i) this

/-! ### the hypotheses are met -/
section
attribute [local instance] Jnp.Dtype.float64
example (w0 wa : ℝ) := C159_galaxy_modes_agree (w0 := w0) (wa := wa)
  case_galaxy.choose_spec.choose_spec.choose_spec.choose_spec.choose_spec.choose_spec ![1e-14, 1, 0] (-2.6) 0.2 0 (by norm_num)
example (j : Fin 2) := C159_zero_scatter_weights (n := 1) 0.5 ![-1, 0, 1] (Case.sm3 (by norm_num) (by norm_num)) (by intro i; fin_cases i <;> norm_num) j
/-- metallicity -3.1 between the edges -3.25 and -2.75 -/
example (l : Fin 2) := C159_zero_scatter_sed (n := 1) (m := 0) (k := 2) caseT caseS (-3.1) caseZ caseA caseF 13 1e-14 caseT_mono caseT_zero (by norm_num) caseT_resolved
  caseA_mono case_young case_old (C05_edges_bracket_partial (n := 2) caseZ caseZ_mild (-10) 10 caseZ_lo caseZ_hi).1 2
  (by have := edges_interior (n := 2) caseZ (-10) 10 1
      norm_num [caseZ] at this ⊢; linarith)
  (by have := edges_interior (n := 2) caseZ (-10) 10 2
      refine lt_of_lt_of_eq ?_ this.symm
      norm_num [caseZ]) l
end
/-- the default parameters with `slope_hi` raised to 0.3 -/
example (i : Fin 9) (hi : i ≠ 4) := C159_mzr_unbounding ({ Umzr.DEFAULT_MZR_PARAMS with mzr_t0_slope_hi := 0.3 } : Umzr.MZRParams).toArray
  (by show MzrAdmissible { Umzr.DEFAULT_MZR_PARAMS with mzr_t0_slope_hi := 0.3 }
      norm_num [MzrAdmissible, MzrSquareBounds, Umzr.DEFAULT_MZR_PARAMS]) rfl i hi

end Dsps.Props
