import Verif.Lemmas.GenPhot
import Verif.Model.GenMore

/-! Gradients of dust attenuation, IMF and mass-metallicity functions. -/
namespace Dsps.Lemmas
open Rev XF Filter Topology

variable {ι : Type} [Fintype ι] {θ : ι → ℝ} {s : Prop} {n m k w : ℕ}

/-- `jnp.where(x < 0, 0, x)` -/
theorem traced_clip {a : Rv ι} {f : (ι → ℝ) → ℝ} (ha : Traced s a f θ) :
    Traced (s ∧ (f θ ≠ 0 ∨ ∀ᶠ y in 𝓝 θ, 0 ≤ f y)) (Flt.sel (Gen.lt a (Flt.lit 0)) (Flt.lit 0) a) (fun θ => if f θ < 0 then 0 else f θ) θ := by
  have hlt := lt_iff ha (Traced.lit (s := s) (θ := θ) 0)
  refine Traced.sel (s1 := True) (s2 := s) (Traced.lit 0) ha (fun h => ?_) (fun h => ?_)
  · rw [hlt] at h
    refine ⟨if_pos h, fun hs => ⟨trivial, ?_⟩⟩
    filter_upwards [(ha.continuousAt hs.1).eventually_lt_const h] with y hy
    exact if_pos hy
  · rw [hlt] at h
    refine ⟨if_neg h, fun hs => ⟨hs.1, ?_⟩⟩
    have h' : ∀ᶠ y in 𝓝 θ, 0 ≤ f y := by
      rcases hs.2 with h0 | h0
      · have hpos : 0 < f θ := lt_of_le_of_ne (not_lt.1 h) (Ne.symm h0)
        filter_upwards [(ha.continuousAt hs.1).eventually_const_lt hpos] with y hy using hy.le
      · exact h0
    filter_upwards [h'] with y hy
    exact if_neg (not_lt.2 hy)

/-- `jnp.where(x < 0, 0, x)` at a point with `0 ≤ x` propagates the derivative of `x` -/
theorem traced_clip_nonneg {a : Rv ι} {f : (ι → ℝ) → ℝ} (ha : Traced s a f θ) (h0 : 0 ≤ f θ) :
    Traced s (Flt.sel (Gen.lt a (Flt.lit 0)) (Flt.lit 0) a) f θ := by
  have hlt := lt_iff ha (Traced.lit (s := s) (θ := θ) 0)
  exact Traced.sel (s1 := True) (s2 := s) (Traced.lit 0) ha (fun h => absurd (hlt.1 h) (not_lt.2 h0))
    (fun _ => ⟨rfl, fun hs => ⟨hs, EventuallyEq.rfl⟩⟩)

/-- `jnp.where(x > 0, 0, x)` -/
theorem traced_clip_hi {a : Rv ι} {f : (ι → ℝ) → ℝ} (ha : Traced s a f θ) :
    Traced (s ∧ (f θ ≠ 0 ∨ ∀ᶠ y in 𝓝 θ, f y ≤ 0)) (Flt.sel (Gen.lt (Flt.lit 0) a) (Flt.lit 0) a) (fun θ => if f θ > 0 then 0 else f θ) θ := by
  have hlt := lt_iff (Traced.lit (s := s) (θ := θ) 0) ha
  refine Traced.sel (s1 := True) (s2 := s) (Traced.lit 0) ha (fun h => ?_) (fun h => ?_)
  · rw [hlt] at h
    refine ⟨if_pos h, fun hs => ⟨trivial, ?_⟩⟩
    filter_upwards [(ha.continuousAt hs.1).eventually_const_lt h] with y hy
    exact if_pos hy
  · rw [hlt] at h
    refine ⟨if_neg h, fun hs => ⟨hs.1, ?_⟩⟩
    have h' : ∀ᶠ y in 𝓝 θ, f y ≤ 0 := by
      rcases hs.2 with h0 | h0
      · have hneg : f θ < 0 := lt_of_le_of_ne (not_lt.1 h) h0
        filter_upwards [(ha.continuousAt hs.1).eventually_lt_const hneg] with y hy using hy.le
      · exact h0
    filter_upwards [h'] with y hy
    exact if_neg (not_lt.2 hy)

/-- `jnp.where(x < c, a, b)` with different branches -/
theorem traced_branch {x a b : Rv ι} {u f g : (ι → ℝ) → ℝ} (c : ℝ) (hx : Traced s x u θ) (ha : Traced s a f θ) (hb : Traced s b g θ) :
    Traced (s ∧ (Fixed u θ ∨ u θ ≠ c)) (Flt.sel (Gen.lt x (Flt.lit c)) a b) (fun θ => if u θ < c then f θ else g θ) θ := by
  have hlt := lt_iff hx (Traced.lit (s := s) (θ := θ) c)
  refine Traced.sel (s1 := s) (s2 := s) ha hb (fun h => ?_) (fun h => ?_)
  · rw [hlt] at h
    refine ⟨if_pos h, fun hs => ⟨hs.1, ?_⟩⟩
    filter_upwards [(hx.continuousAt hs.1).eventually_lt_const h] with y hy
    exact if_pos hy
  · rw [hlt] at h
    refine ⟨if_neg h, fun hs => ⟨hs.1, ?_⟩⟩
    rcases hs.2 with h0 | h0
    · filter_upwards [h0] with y hy
      rw [hy]; exact if_neg h
    · have : c < u θ := lt_of_le_of_ne (not_lt.1 h) (Ne.symm h0)
      filter_upwards [(hx.continuousAt hs.1).eventually_const_lt this] with y hy
      exact if_neg (not_lt.2 hy.le)

theorem traced_branch' {x a b : Rv ι} {u f g : (ι → ℝ) → ℝ} (c : ℝ) (hx : Traced s x u θ) (ha : Traced s a f θ) (hb : Traced s b g θ) :
    Traced (s ∧ (Fixed u θ ∨ u θ ≠ c)) (Flt.sel (Gen.lt (Flt.lit c) x) a b) (fun θ => if u θ > c then f θ else g θ) θ := by
  have hlt := lt_iff (Traced.lit (s := s) (θ := θ) c) hx
  refine Traced.sel (s1 := s) (s2 := s) ha hb (fun h => ?_) (fun h => ?_)
  · rw [hlt] at h
    refine ⟨if_pos h, fun hs => ⟨hs.1, ?_⟩⟩
    filter_upwards [(hx.continuousAt hs.1).eventually_const_lt h] with y hy
    exact if_pos hy
  · rw [hlt] at h
    refine ⟨if_neg h, fun hs => ⟨hs.1, ?_⟩⟩
    rcases hs.2 with h0 | h0
    · filter_upwards [h0] with y hy
      rw [hy]; exact if_neg h
    · have : u θ < c := lt_of_le_of_ne (not_lt.1 h) h0
      filter_upwards [(hx.continuousAt hs.1).eventually_lt_const this] with y hy
      exact if_neg (not_lt.2 hy.le)

/-! ### dust -/

section dust
variable {x k' a' fl bl sl x0' γ' : Rv ι} {u κ av fl0 B δ x0 γ : (ι → ℝ) → ℝ}

theorem traced_calzetti (hx : Traced s x u θ) (h0 : u θ ≠ 0) :
    Traced (s ∧ (Fixed u θ ∨ u θ ≠ 0.63)) (Gen.calzetti00_k_lambda x) (fun θ => Dust.calzetti00_k_lambda (u θ)) θ := by
  have hy := (Traced.lit (s := s) (θ := θ) 1).div hx h0
  have h1 := ((Traced.lit (s := s) (θ := θ) 2.659).mul ((((Traced.lit 2.156).neg.add ((Traced.lit 1.509).mul hy)).sub
    ((Traced.lit 0.198).mul (hy.ipow 2))).add ((Traced.lit 0.011).mul (hy.ipow 3)))).add (Traced.lit Dust.RV_C00)
  have h2 := ((Traced.lit (s := s) (θ := θ) 2.659).mul ((Traced.lit 1.857).neg.add ((Traced.lit 1.040).mul hy))).add (Traced.lit Dust.RV_C00)
  exact traced_branch 0.63 hx h1 h2

theorem traced_leitherer (hx : Traced s x u θ) (h0 : u θ ≠ 0) :
    Traced s (Gen.leitherer02_k_lambda x) (fun θ => Dust.leitherer02_k_lambda (u θ)) θ := by
  have hy := (Traced.lit (s := s) (θ := θ) 1).div hx h0
  exact (Traced.lit 5.472).add ((((Traced.lit 0.671).mul hy).sub ((Traced.lit (9.218 * 1e-3)).mul (hy.ipow 2))).add
    ((Traced.lit (2.620 * 1e-3)).mul (hy.ipow 3)))

/-- the break points of the piecewise curve are avoided, or the wavelength does not vary -/
def NoBreak (u : (ι → ℝ) → ℝ) (θ : ι → ℝ) : Prop := Fixed u θ ∨ (u θ ≠ 0.15 ∧ u θ ≠ 0.63)

theorem traced_l02c00 (hx : Traced s x u θ) (h0 : u θ ≠ 0) :
    Traced (s ∧ NoBreak u θ) (Gen.l02_below_c00_above x (Flt.lit 0.15)) (fun θ => Dust.l02_below_c00_above (u θ) 0.15) θ := by
  have hc := (traced_calzetti hx h0).weaken (s' := s ∧ NoBreak u θ) fun h => ⟨h.1, h.2.imp id fun h => h.2⟩
  have hl := (traced_leitherer hx h0).weaken (s' := s ∧ NoBreak u θ) fun h => h.1
  exact (traced_branch' 0.15 (hx.weaken (s' := s ∧ NoBreak u θ) fun h => h.1) hc hl).weaken fun h => ⟨h, h.2.imp id fun h => h.1⟩

theorem traced_plaw (hx : Traced s x u θ) (hs : Traced s sl δ θ) (h0 : 0 < u θ) :
    Traced s (Gen.power_law_vband_norm x sl (Flt.lit 0.55)) (fun θ => Dust.power_law_vband_norm (u θ) (δ θ) 0.55) θ :=
  (hx.div (Traced.lit 0.55) (by norm_num)).pow hs (div_pos h0 (by norm_num))

theorem traced_drude (hx : Traced s x u θ) (hb : Traced s x0' x0 θ) (hg : Traced s γ' γ θ) (ha : Traced s bl B θ) (h0 : u θ ≠ 0)
    (h1 : γ θ ≠ 0) : Traced s (Gen.drude_bump x x0' γ' bl) (fun θ => Dust.drude_bump (u θ) (x0 θ) (γ θ) (B θ)) θ := by
  refine ha.mul ((((hx.ipow 2).mul (hg.ipow 2))).div (((((hx.ipow 2).sub (hb.ipow 2)).ipow 2)).add ((hx.ipow 2).mul (hg.ipow 2))) ?_)
  have : 0 < (u θ) ^ 2 * (γ θ) ^ 2 := by positivity
  positivity

/-- the reddening curves before clipping at zero -/
noncomputable def sbl18Raw (w B δ x0 γ : ℝ) : ℝ :=
  Dust.l02_below_c00_above w 0.15 * Dust.power_law_vband_norm w δ + Dust.drude_bump w x0 γ B
noncomputable def noll09Raw (w B δ x0 γ : ℝ) : ℝ :=
  (Dust.l02_below_c00_above w 0.15 + Dust.drude_bump w x0 γ B) * Dust.power_law_vband_norm w δ

variable (hx : Traced s x u θ) (ha : Traced s bl B θ) (hs : Traced s sl δ θ) (hb : Traced s x0' x0 θ) (hg : Traced s γ' γ θ)
    (h0 : 0 < u θ) (h1 : γ θ ≠ 0)
include hx ha hs hb hg h0 h1

theorem traced_sbl18_raw : Traced (s ∧ NoBreak u θ)
    (Gen.l02_below_c00_above x (Flt.lit 0.15) * Gen.power_law_vband_norm x sl (Flt.lit 0.55) + Gen.drude_bump x x0' γ' bl)
    (fun θ => sbl18Raw (u θ) (B θ) (δ θ) (x0 θ) (γ θ)) θ := by
  have h := traced_l02c00 hx h0.ne'
  exact (h.mul ((traced_plaw hx hs h0).weaken And.left)).add ((traced_drude hx hb hg ha h0.ne' h1).weaken And.left)

theorem traced_noll09_raw : Traced (s ∧ NoBreak u θ)
    ((Gen.l02_below_c00_above x (Flt.lit 0.15) + Gen.drude_bump x x0' γ' bl) * Gen.power_law_vband_norm x sl (Flt.lit 0.55))
    (fun θ => noll09Raw (u θ) (B θ) (δ θ) (x0 θ) (γ θ)) θ := by
  have h := traced_l02c00 hx h0.ne'
  exact (h.add ((traced_drude hx hb hg ha h0.ne' h1).weaken And.left)).mul ((traced_plaw hx hs h0).weaken And.left)

end dust

/-! ### IMF and mass-metallicity relations -/

section mzr
variable {x t' : Rv ι} {u t : (ι → ℝ) → ℝ}

theorem traced_remnant {l a b k1 d e : Rv ι} {l0 a0 b0 k0 d0 e0 : (ι → ℝ) → ℝ} (hl : Traced s l l0 θ) (ha : Traced s a a0 θ) (hb : Traced s b b0 θ)
    (hk : Traced s k1 k0 θ) (hd : Traced s d d0 θ) (he : Traced s e e0 θ) :
    Traced s (Gen.remnant_mass l a b k1 d e) (fun θ => RemnantMass.remnant_mass (l0 θ) ⟨a0 θ, b0 θ, k0 θ, d0 θ, e0 θ⟩) θ :=
  (traced_sig_slope hl hb ha hb hk.exp10 hd he).exp10

theorem traced_surviving {l a b k1 d e f k2 h : Rv ι} {l0 a0 b0 k0 d0 e0 f0 kk0 h0 : (ι → ℝ) → ℝ} (hl : Traced s l l0 θ) (ha : Traced s a a0 θ)
    (hb : Traced s b b0 θ) (hk : Traced s k1 k0 θ) (hd : Traced s d d0 θ) (he : Traced s e e0 θ) (hf : Traced s f f0 θ) (hk2 : Traced s k2 kk0 θ)
    (hh : Traced s h h0 θ) : Traced s (Gen.surviving_mstar l a b k1 d e f k2 h)
      (fun θ => SurvivingMstar.surviving_mstar (l0 θ) ⟨a0 θ, b0 θ, k0 θ, d0 θ, e0 θ, f0 θ, kk0 θ, h0 θ⟩) θ :=
  (Traced.lit 1).sub (traced_sigmoid hl hf hk2.exp10 hh (traced_sig_slope hl hb ha hb hk.exp10 hd he))

/-- the lookback time of the evolution model -/
noncomputable def mzrLookback (t : ℝ) : ℝ := if 12.5 - t < 0 then 0 else 12.5 - t

theorem traced_mzr_lookback (ht : Traced s t' t θ) :
    Traced (s ∧ (Fixed t θ ∨ t θ ≠ 12.5)) (Flt.sel (Gen.lt (Flt.lit 12.5 - t') (Flt.lit 0)) (Flt.lit 0) (Flt.lit 12.5 - t'))
      (fun θ => mzrLookback (t θ)) θ := by
  have h1 := (Traced.lit (s := s) (θ := θ) 12.5).sub ht
  have hlt := lt_iff h1 (Traced.lit (s := s) (θ := θ) 0)
  refine Traced.sel (s1 := True) (s2 := s) (Traced.lit 0) h1 (fun h => ?_) (fun h => ?_)
  · rw [hlt] at h
    refine ⟨if_pos h, fun hs => ⟨trivial, ?_⟩⟩
    filter_upwards [(h1.continuousAt hs.1).eventually_lt_const h] with y hy
    exact if_pos hy
  · rw [hlt] at h
    refine ⟨if_neg h, fun hs => ⟨hs.1, ?_⟩⟩
    rcases hs.2 with h0 | h0
    · filter_upwards [h0] with y hy
      show mzrLookback (t y) = 12.5 - t y
      rw [hy]; exact if_neg h
    · have : t θ < 12.5 := lt_of_le_of_ne (by linarith [not_lt.1 h]) h0
      filter_upwards [(ht.continuousAt hs.1).eventually_lt_const this] with y hy
      exact if_neg (by linarith)

/-- the redshift evolution before clipping at zero: umzr.py and mzr.py -/
noncomputable def umzrRaw (logsm t c0 c1 d0 d1 : ℝ) : ℝ :=
  Umzr.delta_logz_vs_t_lookback (mzrLookback t) (c0 + c1 * logsm) (d0 + d1 * logsm) 1.6
noncomputable def mzrRaw (logsm t c0 c1 tc d0 d1 : ℝ) : ℝ :=
  Mzr.delta_logz_vs_t_lookback (mzrLookback t) (c0 + c1 * logsm) (tc + 0) (d0 + d1 * logsm) 1.6

theorem traced_umzr {P : Fin 9 → Rv ι} {p : (ι → ℝ) → Fin 9 → ℝ} (hx : Traced s x u θ) (ht : Traced s t' t θ) (hp : TV s P p θ) :
    Traced (s ∧ (Fixed t θ ∨ t θ ≠ 12.5) ∧ umzrRaw (u θ) (t θ) (p θ 5) (p θ 6) (p θ 7) (p θ 8) ≠ 0) (Gen.umzr_model x t' P)
      (fun θ => Umzr.mzr_model (u θ) (t θ) (Umzr.MZRParams.ofArray (p θ))) θ := by
  have hx' := hx.weaken (s' := s ∧ (Fixed t θ ∨ t θ ≠ 12.5)) And.left
  have hp' := hp.weaken (s' := s ∧ (Fixed t θ ∨ t θ ≠ 12.5)) And.left
  have hl := traced_mzr_lookback ht
  have h0 := (traced_sig_slope hx' (Traced.lit Umzr.MZR_T0_XTP) (hp' 0) (hp' 1) (hp' 2) (hp' 3) (hp' 4)).add (Traced.lit Umzr.LGMET_SOLAR)
  have hy := (hp' 5).add ((hp' 6).mul hx')
  have he := (hp' 7).add ((hp' 8).mul hx')
  have hr := traced_sig_slope hl (Traced.lit Umzr.MZR_DT_XTP) hy (Traced.lit Umzr.TLOOK_C) (Traced.lit Umzr.MZR_EVOL_K)
    (hy.div (Traced.lit Umzr.TLOOK_C) (by norm_num [Umzr.TLOOK_C])) he
  have hc := traced_clip_hi hr
  refine ((h0.weaken (s' := s ∧ (Fixed t θ ∨ t θ ≠ 12.5) ∧ umzrRaw (u θ) (t θ) (p θ 5) (p θ 6) (p θ 7) (p θ 8) ≠ 0) fun h => ⟨h.1, h.2.1⟩).add
    (hc.weaken fun h => ⟨⟨h.1, h.2.1⟩, Or.inl h.2.2⟩))

theorem TV.bounded_mzr {P : Fin 9 → Rv ι} {p : (ι → ℝ) → Fin 9 → ℝ} (hp : TV s P p θ) :
    TV s (Gen.get_bounded_mzr_params P) (fun θ => (Umzr.get_bounded_mzr_params (Umzr.MZRUParams.ofArray (p θ))).toArray) θ := by
  have hsq : ∀ i, Traced s (Gen.get_square_bounded_param (P i) (Umzr.MZR_PBDICT i))
      (fun θ => Umzr.get_square_bounded_param (p θ i) (Umzr.MZR_PBDICT i)) θ := fun i =>
    traced_sigmoid (hp i) ((Traced.lit 0.5).mul ((Traced.lit _).add (Traced.lit _))) (Traced.lit _) (Traced.lit _) (Traced.lit _)
  have hhi : Traced s (Gen.get_mzr_t0_slope_hi_from_unbounded (Gen.get_square_bounded_param (P 3) (Umzr.MZR_PBDICT 3)) (P 4))
      (fun θ => Umzr.get_mzr_t0_slope_hi_from_unbounded (Umzr.get_square_bounded_param (p θ 3) (Umzr.MZR_PBDICT 3)) (p θ 4)) θ :=
    traced_sigmoid (hp 4) (Traced.lit 0.0) (Traced.lit _) (Traced.lit _) (hsq 3)
  intro i
  unfold Gen.get_bounded_mzr_params
  simp only
  by_cases hi : i = 4
  · subst hi
    rw [Function.update_self]; exact hhi
  · rw [Function.update_of_ne hi]
    refine (hsq i).congr ?_
    funext θ
    fin_cases i <;> first | rfl | exact absurd rfl hi

theorem traced_mzr {q : Fin 10 → Rv ι} {p : Fin 10 → (ι → ℝ) → ℝ} (hx : Traced s x u θ) (ht : Traced s t' t θ) (hp : ∀ i, Traced s (q i) (p i) θ)
    (htc : p 7 θ ≠ 0) :
    Traced (s ∧ (Fixed t θ ∨ t θ ≠ 12.5) ∧ mzrRaw (u θ) (t θ) (p 5 θ) (p 6 θ) (p 7 θ) (p 8 θ) (p 9 θ) ≠ 0)
      (Gen.mzr_model x t' (q 0) (q 1) (q 2) (q 3) (q 4) (q 5) (q 6) (q 7) (q 8) (q 9))
      (fun θ => Mzr.mzr_model (u θ) (t θ) (p 0 θ) (p 1 θ) (p 2 θ) (p 3 θ) (p 4 θ) (p 5 θ) (p 6 θ) (p 7 θ) (p 8 θ) (p 9 θ)) θ := by
  have hx' := hx.weaken (s' := s ∧ (Fixed t θ ∨ t θ ≠ 12.5)) And.left
  have hp' := fun i => (hp i).weaken (s' := s ∧ (Fixed t θ ∨ t θ ≠ 12.5)) And.left
  have hl := traced_mzr_lookback ht
  have h0 := (traced_sig_slope hx' (hp' 1) (hp' 0) (hp' 1) (hp' 2) (hp' 3) (hp' 4)).add (Traced.lit Mzr.LGMET_SOLAR)
  have hy := (hp' 5).add ((hp' 6).mul hx')
  have he := (hp' 8).add ((hp' 9).mul hx')
  have htc' := (hp' 7).add (Traced.lit 0)
  have hr := traced_sig_slope hl htc' hy htc' (Traced.lit Mzr.MZR_EVOL_K) (hy.div htc' (by simpa using htc)) he
  have hc := traced_clip_hi hr
  exact ((h0.weaken (s' := s ∧ (Fixed t θ ∨ t θ ≠ 12.5) ∧ mzrRaw (u θ) (t θ) (p 5 θ) (p 6 θ) (p 7 θ) (p 8 θ) (p 9 θ) ≠ 0)
    fun h => ⟨h.1, h.2.1⟩).add (hc.weaken fun h => ⟨⟨h.1, h.2.1⟩, Or.inl h.2.2⟩))

end mzr

end Dsps.Lemmas
