import Verif.Model.Gen
import Verif.Lemmas.Rev
import Verif.Props.Smooth

/-! The functions of `utils.py`, recorded for differentiation, are `Traced`. -/
namespace Dsps.Lemmas
open Rev XF Topology Filter Dsps.Constants

variable {ι : Type} [Fintype ι] {s : Prop} {θ : ι → ℝ} {n m k w : ℕ}

/-- entrywise `Traced` -/
def TV (s : Prop) (a : Fin n → Rv ι) (F : (ι → ℝ) → Fin n → ℝ) (θ : ι → ℝ) : Prop :=
  ∀ j, Traced s (a j) (fun θ => F θ j) θ

/-- `jnp.where` with a general condition on the derivative of the branch taken -/
theorem _root_.Rev.Traced.sel' {c : Prop} {a b : Rv ι} {f g F : (ι → ℝ) → ℝ} {s1 s2 : Prop} (ha : Traced s1 a f θ) (hb : Traced s2 b g θ)
    (h1 : c → F θ = f θ ∧ (s → s1 ∧ ∀ L : (ι → ℝ) →L[ℝ] ℝ, HasFDerivAt f L θ → HasFDerivAt F L θ))
    (h2 : ¬ c → F θ = g θ ∧ (s → s2 ∧ ∀ L : (ι → ℝ) →L[ℝ] ℝ, HasFDerivAt g L θ → HasFDerivAt F L θ)) :
    Traced s (Flt.sel c a b) F θ := by
  obtain ⟨G, a1, a2, at', a3⟩ := ha
  obtain ⟨H, b1, b2, bt, b3⟩ := hb
  classical
  by_cases hc : c
  · refine ⟨G, ?_, fun ct x h i => ?_, fun e => ?_, fun hs => ?_⟩
    · show Rep (if c then a.v else b.v) _
      rw [if_pos hc, (h1 hc).1]; exact a1
    · show Rep (a.back (if c then ct else 0) i + b.back (if c then 0 else ct) i) _
      rw [if_pos hc, if_pos hc]
      exact ((a2 _ _ h i).add (b2 _ _ (Rep.fin 0) i)).of_eq (by ring)
    · show Rep (if c then a.tan e else b.tan e) _
      rw [if_pos hc]; exact at' e
    · exact ((h1 hc).2 hs).2 _ (a3 ((h1 hc).2 hs).1)
  · refine ⟨H, ?_, fun ct x h i => ?_, fun e => ?_, fun hs => ?_⟩
    · show Rep (if c then a.v else b.v) _
      rw [if_neg hc, (h2 hc).1]; exact b1
    · show Rep (a.back (if c then ct else 0) i + b.back (if c then 0 else ct) i) _
      rw [if_neg hc, if_neg hc]
      exact ((a2 _ _ (Rep.fin 0) i).add (b2 _ _ h i)).of_eq (by ring)
    · show Rep (if c then a.tan e else b.tan e) _
      rw [if_neg hc]; exact bt e
    · exact ((h2 hc).2 hs).2 _ (b3 ((h2 hc).2 hs).1)

theorem lt_iff {s s' : Prop} {a b : Rv ι} {f g : (ι → ℝ) → ℝ} (ha : Traced s a f θ) (hb : Traced s' b g θ) :
    Gen.lt a b ↔ f θ < g θ := ha.rep.lt_iff hb.rep
theorem le_iff {s s' : Prop} {a b : Rv ι} {f g : (ι → ℝ) → ℝ} (ha : Traced s a f θ) (hb : Traced s' b g θ) :
    Gen.le a b ↔ f θ ≤ g θ := ha.rep.le_iff hb.rep
theorem eqv_iff {s s' : Prop} {a b : Rv ι} {f g : (ι → ℝ) → ℝ} (ha : Traced s a f θ) (hb : Traced s' b g θ) :
    Gen.eqv a b ↔ f θ = g θ := ha.rep.eqv_iff hb.rep

namespace TV
variable {F G : (ι → ℝ) → Fin n → ℝ}

theorem rep {a : Fin n → Rv ι} (h : TV s a F θ) : RepV (fun j => (a j).v) (F θ) := fun j => (h j).rep

theorem weaken {s' : Prop} {a : Fin n → Rv ι} (h : TV s a F θ) (hs : s' → s) : TV s' a F θ := fun j => (h j).weaken hs

theorem lit (x : Fin n → ℝ) : TV s (fun i => (Flt.lit (x i) : Rv ι)) (fun _ => x) θ := fun i => Traced.lit _

theorem setAt {a : Fin n → Rv ι} (h : TV s a F θ) (j : Fin n) {b : Rv ι} {y : (ι → ℝ) → ℝ}
    (hb : Traced s b y θ) : TV s (Jnp.setAt a j b) (fun θ => Jnp.setAt (F θ) j (y θ)) θ := by
  intro i
  unfold Jnp.setAt
  by_cases hij : i = j
  · subst hij; simpa only [Function.update_self] using hb
  · simpa only [Function.update_of_ne hij] using h i

theorem setInit {F : (ι → ℝ) → Fin (n + 1) → ℝ} {a : Fin (n + 1) → Rv ι} (h : TV s a F θ) {b : Fin n → Rv ι} (hb : TV s b G θ) :
    TV s (Jnp.setInit a b) (fun θ => Jnp.setInit (F θ) (G θ)) θ := by
  intro i
  unfold Jnp.setInit
  induction i using Fin.lastCases with
  | last => simpa using h _
  | cast i => simpa using hb i

theorem setTail {F : (ι → ℝ) → Fin (n + 1) → ℝ} {a : Fin (n + 1) → Rv ι} (h : TV s a F θ) {b : Fin n → Rv ι} (hb : TV s b G θ) :
    TV s (Jnp.setTail a b) (fun θ => Jnp.setTail (F θ) (G θ)) θ := by
  intro i
  unfold Jnp.setTail
  induction i using Fin.cases with
  | zero => simpa using h _
  | succ i => simpa using hb i

theorem zeros (n : ℕ) : TV s (Gen.zeros n : Fin n → Rv ι) (fun _ => Jnp.zeros n) θ := fun _ => Traced.lit 0

theorem tail {F : (ι → ℝ) → Fin (n + 1) → ℝ} {a : Fin (n + 1) → Rv ι} (h : TV s a F θ) :
    TV s (Jnp.tail a) (fun θ => Jnp.tail (F θ)) θ := fun i => h i.succ
theorem init {F : (ι → ℝ) → Fin (n + 1) → ℝ} {a : Fin (n + 1) → Rv ι} (h : TV s a F θ) :
    TV s (Jnp.init a) (fun θ => Jnp.init (F θ)) θ := fun i => h i.castSucc
theorem diff {F : (ι → ℝ) → Fin (n + 1) → ℝ} {a : Fin (n + 1) → Rv ι} (h : TV s a F θ) :
    TV s (Gen.diff a) (fun θ => Jnp.diff (F θ)) θ := fun i => (h i.succ).sub (h i.castSucc)

theorem setInterior {F : (ι → ℝ) → Fin (n + 2) → ℝ} {a : Fin (n + 2) → Rv ι} (h : TV s a F θ) {b : Fin n → Rv ι} (hb : TV s b G θ) :
    TV s (Jnp.setInterior a b) (fun θ => Jnp.setInterior (F θ) (G θ)) θ :=
  h.setTail (h.tail.setInit hb)

theorem half {a : Rv ι} {f : (ι → ℝ) → ℝ} (h : Traced s a f θ) : Traced s (a / Flt.lit 2) (fun θ => f θ / 2) θ :=
  h.div (Traced.lit 2) (by norm_num)

theorem dt {F : (ι → ℝ) → Fin (n + 3) → ℝ} {a : Fin (n + 3) → Rv ι} (h : TV s a F θ) :
    TV s (Gen.jax_get_dt_array a) (fun θ => Utils.jax_get_dt_array (F θ)) θ := by
  unfold Gen.jax_get_dt_array Utils.jax_get_dt_array
  have hm : TV s (fun i : Fin (n + 2) => Flt.lit 0.5 * (Jnp.init a i + Jnp.tail a i)) (fun θ i => 0.5 * (Jnp.init (F θ) i + Jnp.tail (F θ) i)) θ :=
    fun i => (Traced.lit 0.5).mul ((h _).add (h _))
  have hd := hm.diff
  refine setAt (setAt (setInterior (zeros _) hd) _ ?_) _ ?_
  · exact (hm 0).sub ((h 0).sub (half ((h 1).sub (h 0))))
  · exact ((h _).add (half (hd _))).sub (hm _)

theorem edges {F : (ι → ℝ) → Fin (n + 3) → ℝ} {a : Fin (n + 3) → Rv ι} (h : TV s a F θ) {l r : Rv ι} {u v : (ι → ℝ) → ℝ}
    (hl : Traced s l u θ) (hr : Traced s r v θ) :
    TV s (Gen.get_bin_edges a l r) (fun θ => Utils.get_bin_edges (F θ) (u θ) (v θ)) θ := by
  unfold Gen.get_bin_edges Utils.get_bin_edges
  exact setAt (setAt (setInit (zeros _) fun i => (h i).sub (half (h.dt i))) _ hl) _ hr

theorem lg_age_edges {F : (ι → ℝ) → Fin (m + 3) → ℝ} {a : Fin (m + 3) → Rv ι} (h : TV s a F θ) :
    TV s (Gen.get_lg_age_bin_edges a) (fun θ => StellarAgeWeights.get_lg_age_bin_edges (F θ)) θ := by
  unfold Gen.get_lg_age_bin_edges StellarAgeWeights.get_lg_age_bin_edges
  refine setAt (setAt (setInit (zeros _) fun i => (h i).sub (half (h.dt i))) _ ?_) _ ?_
  · exact (h 0).sub (half ((h 1).sub (h 0)))
  · exact (h _).add (half (h.dt _))

end TV

/-- related inputs of a scan give related outputs, for a family of scans -/
theorem scan_fun {Θ σ σ' β β' γ γ' : Type} {f : σ → β → σ × γ} {f' : σ' → β' → σ' × γ'} (S : σ → (Θ → σ') → Prop)
    (B : β → (Θ → β') → Prop) (G : γ → (Θ → γ') → Prop)
    (hf : ∀ s s' b b', S s s' → B b b' → S (f s b).1 (fun θ => (f' (s' θ) (b' θ)).1) ∧ G (f s b).2 (fun θ => (f' (s' θ) (b' θ)).2)) :
    ∀ {n : ℕ} (s : σ) (s' : Θ → σ') (xs : Fin n → β) (xs' : Θ → Fin n → β'), S s s' → (∀ i, B (xs i) (fun θ => xs' θ i)) →
      ∀ i, G ((Jnp.scan f s xs).2 i) (fun θ => (Jnp.scan f' (s' θ) (xs' θ)).2 i)
  | 0, _, _, _, _, _, _ => fun i => i.elim0
  | n + 1, s, s', xs, xs', hs, hx => by
    intro i
    have h0 := hf s s' _ _ hs (hx 0)
    have ih := scan_fun S B G hf (f s (xs 0)).1 (fun θ => (f' (s' θ) (xs' θ 0)).1) (fun i => xs i.succ) (fun θ i => xs' θ i.succ) h0.1
      (fun i => hx i.succ)
    unfold Jnp.scan
    simp only
    induction i using Fin.cases with
    | zero => simpa using h0.2
    | succ i => simpa using ih i

namespace TV

theorem cumtrapz {F G : (ι → ℝ) → Fin (n + 1) → ℝ} {a b : Fin (n + 1) → Rv ι} (ha : TV s a F θ) (hb : TV s b G θ) :
    TV s (Gen.cumtrapz a b) (fun θ => Utils.cumtrapz (F θ) (G θ)) θ := by
  intro i
  unfold Gen.cumtrapz Utils.cumtrapz
  refine scan_fun (Θ := ι → ℝ)
    (fun s1 s' => Traced s s1.1 (fun θ => (s' θ).1) θ ∧ Traced s s1.2.1 (fun θ => (s' θ).2.1) θ ∧ Traced s s1.2.2 (fun θ => (s' θ).2.2) θ)
    (fun b b' => Traced s b.1 (fun θ => (b' θ).1) θ ∧ Traced s b.2 (fun θ => (b' θ).2) θ) (fun g g' => Traced s g g' θ) ?_
    _ (fun θ => (F θ 0, G θ 0, 0)) _ (fun θ i => (F θ i, G θ i)) ⟨ha 0, hb 0, Traced.lit 0⟩ (fun i => ⟨ha i, hb i⟩) i
  rintro ⟨s1, s2, s3⟩ t ⟨b1, b2⟩ c ⟨h1, h2, h3⟩ ⟨g1, g2⟩
  have hc := h3.add (((g1.sub h1).mul (g2.add h2)).div (Traced.lit 2.0) (by norm_num))
  exact ⟨⟨g1, g2, hc⟩, hc⟩

theorem trapz {F G : (ι → ℝ) → Fin (n + 1) → ℝ} {a b : Fin (n + 1) → Rv ι} (ha : TV s a F θ) (hb : TV s b G θ) :
    Traced s (Gen.trapz a b) (fun θ => Utils.trapz (F θ) (G θ)) θ :=
  (Traced.lit 0.5).mul (Traced.sum fun i => (ha.diff i).mul ((hb _).add (hb _)))

theorem mstar {F G : (ι → ℝ) → Fin n → ℝ} {a b : Fin n → Rv ι} (ha : TV s a F θ) (hb : TV s b G θ) :
    TV s (Gen.cumulative_mstar_formed a b) (fun θ => Utils.cumulative_mstar_formed (F θ) (G θ)) θ := by
  unfold Gen.cumulative_mstar_formed Utils.cumulative_mstar_formed
  intro i
  exact (cumtrapz (((zeros _).setAt _ (Traced.lit _)).setTail ha) (((zeros _).setAt _ (Traced.lit _)).setTail hb)).tail i |>.mul (Traced.lit _)

end TV

/-! ### triweight kernel -/

theorem traced_tw_cuml {a b c : Rv ι} {x u h : (ι → ℝ) → ℝ} (ha : Traced s a x θ) (hb : Traced s b u θ) (hc : Traced s c h θ)
    (h0 : h θ ≠ 0) : Traced s (Gen.tw_cuml_kern a b c) (fun θ => Utils.tw_cuml_kern (x θ) (u θ) (h θ)) θ := by
  have e : (fun θ => Utils.tw_cuml_kern (x θ) (u θ) (h θ)) = fun θ => twC ((x θ - u θ) / h θ) := by
    funext θ; exact tw_cuml_kern_eq _ _ _
  rw [e]
  have hz := (ha.sub hb).div hc h0
  set z : (ι → ℝ) → ℝ := fun θ => (x θ - u θ) / h θ with hzdef
  have hP : Traced s _ (fun θ => twP (z θ)) θ := ((((((Traced.lit 5).neg.mul (hz.ipow 7)).div (Traced.lit 69984) (by norm_num)).add
    (((Traced.lit 7).mul (hz.ipow 5)).div (Traced.lit 2592) (by norm_num))).sub
    (((Traced.lit 35).mul (hz.ipow 3)).div (Traced.lit 864) (by norm_num))).add
    (((Traced.lit 35).mul hz).div (Traced.lit 96) (by norm_num))).add ((Traced.lit 1).div (Traced.lit 2) (by norm_num))
  have hz0 := hz
  obtain ⟨g, g1, g2, -, g3⟩ := hz
  have hlo : Gen.lt ((a - b) / c) (-(Flt.lit 3)) ↔ z θ < -3 := lt_iff hz0 (Traced.lit (s := s) (3:ℝ)).neg
  have hhi : Gen.lt (Flt.lit 3) ((a - b) / c) ↔ 3 < z θ := lt_iff (Traced.lit (s := s) (3:ℝ)) hz0
  have hmid : Traced s _ (fun θ => if z θ < -3 then 0 else twP (z θ)) θ :=
    Traced.sel' (c := Gen.lt ((a - b) / c) (-(Flt.lit 3))) (s := s) (Traced.lit (s := s) 0) hP
      (F := fun θ => if z θ < -3 then 0 else twP (z θ))
      (fun hc => by
        refine ⟨if_pos (hlo.1 hc), fun hs => ⟨hs, fun L hL => ?_⟩⟩
        refine hL.congr_of_eventuallyEq ?_
        filter_upwards [(g3 hs).continuousAt.eventually_lt continuousAt_const (hlo.1 hc)] with y hy
        exact if_pos hy)
      (fun hc => by
        have hc' : ¬ z θ < -3 := fun h' => hc (hlo.2 h')
        refine ⟨if_neg hc', fun hs => ⟨hs, fun L hL => ?_⟩⟩
        have hL' : L = twp (z θ) • lin g := hL.unique ((hasDerivAt_twP (z θ)).comp_hasFDerivAt θ (g3 hs))
        rw [hL']
        by_cases h3 : z θ < 3
        · have h1 : HasDerivAt twC (twp (z θ)) (z θ) := by
            have := hasDerivAt_twC (z θ)
            rwa [twc, if_neg (by push Not; exact ⟨not_lt.1 hc', h3.le⟩)] at this
          refine (h1.comp_hasFDerivAt θ (g3 hs)).congr_of_eventuallyEq ?_
          filter_upwards [(g3 hs).continuousAt.eventually_lt continuousAt_const h3] with y hy
          simp only [Function.comp, twC, if_neg (not_lt.2 hy.le), gt_iff_lt]
        · refine ((hasDerivAt_twP (z θ)).comp_hasFDerivAt θ (g3 hs)).congr_of_eventuallyEq ?_
          have : -3 < z θ := by linarith [not_lt.1 h3]
          filter_upwards [(continuousAt_const (y := (-3:ℝ))).eventually_lt (g3 hs).continuousAt this] with y hy
          simp only [Function.comp, if_neg (not_lt.2 hy.le)])
  refine Traced.sel' (c := Gen.lt (Flt.lit 3) ((a - b) / c)) (s := s) (Traced.lit (s := s) 1) hmid ?_ ?_
  · intro hc
    have hc' := hhi.1 hc
    refine ⟨by simp only [twC, gt_iff_lt]; exact if_pos hc', fun hs => ⟨hs, fun L hL => ?_⟩⟩
    refine hL.congr_of_eventuallyEq ?_
    filter_upwards [continuousAt_const.eventually_lt (g3 hs).continuousAt hc'] with y hy
    simp only [twC, gt_iff_lt]; exact if_pos hy
  · intro hc
    have hc' : ¬ 3 < z θ := fun h' => hc (hhi.2 h')
    refine ⟨by simp only [twC, gt_iff_lt]; exact if_neg hc', fun hs => ⟨hs, fun L hL => ?_⟩⟩
    by_cases hlt : z θ < 3
    · refine hL.congr_of_eventuallyEq ?_
      filter_upwards [(g3 hs).continuousAt.eventually_lt continuousAt_const hlt] with y hy
      simp only [twC, gt_iff_lt]; exact if_neg (not_lt.2 hy.le)
    · have h3 : z θ = 3 := le_antisymm (not_lt.1 hc') (not_lt.1 hlt)
      have hL' : L = twp (z θ) • lin g := by
        refine (hL.congr_of_eventuallyEq ?_).unique ((hasDerivAt_twP (z θ)).comp_hasFDerivAt θ (g3 hs))
        filter_upwards [(continuousAt_const (y := (-3:ℝ))).eventually_lt (g3 hs).continuousAt (by rw [h3]; norm_num)] with y hy
        simp only [Function.comp, if_neg (not_lt.2 hy.le)]
      rw [hL']
      have h1 : HasDerivAt twC (twp (z θ)) (z θ) := by
        have := hasDerivAt_twC (z θ)
        rwa [twc, if_neg (by rw [h3]; norm_num)] at this
      exact h1.comp_hasFDerivAt θ (g3 hs)

theorem traced_hist {a b : Rv ι} {x sig : (ι → ℝ) → ℝ} {E : Fin (n + 1) → Rv ι} {e : (ι → ℝ) → Fin (n + 1) → ℝ} (ha : Traced s a x θ)
    (hb : Traced s b sig θ) (he : TV s E e θ) (h0 : sig θ ≠ 0) (i : Fin n) :
    Traced s (Gen.triweighted_histogram a b E i) (fun θ => Utils.triweighted_histogram (x θ) (sig θ) (e θ) i) θ :=
  (traced_tw_cuml ha (he _) hb h0).sub (traced_tw_cuml ha (he _) hb h0)

theorem traced_oneHot (j i : Fin n) : Traced s (Function.update (fun _ => (Flt.lit 0 : Rv ι)) j (Flt.lit 1) i)
    (fun _ => if i = j then (1:ℝ) else 0) θ := by
  by_cases h : i = j
  · subst h; simp only [Function.update_self, if_true]; exact Traced.lit 1
  · simp only [Function.update_of_ne h, if_neg h]; exact Traced.lit 0

theorem eventually_strictMono {X : Type*} [TopologicalSpace X] {x0 : X} {e : X → Fin (n + 1) → ℝ} (he : ∀ i, ContinuousAt (fun x => e x i) x0)
    (h : StrictMono (e x0)) : ∀ᶠ x in 𝓝 x0, StrictMono (e x) := by
  simp only [Fin.strictMono_iff_lt_succ] at h ⊢
  exact eventually_all.2 fun i => (he _).eventually_lt (he _) (h i)

theorem traced_triweights {a b : Rv ι} {x sig : (ι → ℝ) → ℝ} {E : Fin (n + 2) → Rv ι} {e : (ι → ℝ) → Fin (n + 2) → ℝ} (ha : Traced s a x θ)
    (hb : Traced s b sig θ) (he : TV s E e θ) (hpos : 0 < sig θ) (hmono : StrictMono (e θ)) (i : Fin (n + 1)) :
    Traced s (Gen.get_lgmet_weights_singlegal a b E i) (fun θ => Utils.get_triweights_singlepoint (x θ) (sig θ) (e θ) i) θ := by
  have hk := traced_hist ha hb he hpos.ne'
  set H : (ι → ℝ) → Fin (n + 1) → ℝ := fun θ => Utils.triweighted_histogram (x θ) (sig θ) (e θ) with hH
  have hS : Traced s _ (fun θ => Jnp.sum (H θ)) θ := Traced.sum hk
  have hz : Gen.eqv (Flt.sum (Gen.triweighted_histogram a b E)) (Flt.lit 0) ↔ Jnp.sum (H θ) = 0 := eqv_iff hS (Traced.lit (s := s) (0:ℝ))
  have hN : Traced (s ∧ Jnp.sum (H θ) ≠ 0) _ (fun θ => if Jnp.sum (H θ) = 0 then 1 else Jnp.sum (H θ)) θ :=
    Traced.sel (c := Gen.eqv (Flt.sum (Gen.triweighted_histogram a b E)) (Flt.lit 0)) (Traced.lit (s := s) 1) hS
      (F := fun θ => if Jnp.sum (H θ) = 0 then 1 else Jnp.sum (H θ))
      (fun hc => ⟨if_pos (hz.1 hc), fun hs => absurd (hz.1 hc) hs.2⟩)
      (fun hc => ⟨if_neg fun h => hc (hz.2 h), fun hs => ⟨hs.1, by
        filter_upwards [(hS.continuousAt hs.1).eventually_ne hs.2] with y hy
        exact if_neg hy⟩⟩)
  have hN0 : (if Jnp.sum (H θ) = 0 then 1 else Jnp.sum (H θ)) ≠ 0 := by
    split_ifs with h
    · norm_num
    · exact h
  have hw := fun i => ((hk i).weaken (s' := s ∧ Jnp.sum (H θ) ≠ 0) And.left).div hN hN0
  set W : Fin (n + 1) → Rv ι := fun i => Gen.triweighted_histogram a b E i / Flt.sel (Gen.eqv (Flt.sum (Gen.triweighted_histogram a b E)) (Flt.lit 0))
    (Flt.lit 1) (Flt.sum (Gen.triweighted_histogram a b E)) with hW
  have hz' : (∀ i, Gen.eqv (W i) (Flt.lit 0)) ↔ ∀ i, H θ i / (if Jnp.sum (H θ) = 0 then 1 else Jnp.sum (H θ)) = 0 :=
    forall_congr' fun i => eqv_iff (hw i) (Traced.lit (s := s) (0:ℝ))
  have hlo : Gen.lt a (E 0) ↔ x θ < e θ 0 := lt_iff ha (he 0)
  have hhi : Gen.lt (E (Fin.last (n + 1))) a ↔ e θ (Fin.last (n + 1)) < x θ := lt_iff (he _) ha
  have hlt : e θ 0 < e θ (Fin.last (n + 1)) := hmono Fin.last_pos
  show Traced s (Flt.sel ((∀ i, Gen.eqv (W i) (Flt.lit 0)) ∧ Gen.lt (E (Fin.last (n + 1))) a) _
    (Flt.sel ((∀ i, Gen.eqv (W i) (Flt.lit 0)) ∧ Gen.lt a (E 0)) _ (W i))) _ θ
  by_cases h0 : Jnp.sum (H θ) = 0
  · -- outside the grid
    have hnn : ∀ i, 0 ≤ H θ i := fun i => tw_hist_nonneg (x θ) (sig θ) hpos (e θ) hmono.monotone i
    have hall : ∀ i, H θ i = 0 := fun i => (Finset.sum_eq_zero_iff_of_nonneg fun i _ => hnn i).1 h0 i (Finset.mem_univ i)
    have hzt : ∀ i, Gen.eqv (W i) (Flt.lit 0) := hz'.2 fun i => by rw [hall i, zero_div]
    have hout : x θ ≤ e θ 0 - 3 * sig θ ∨ e θ (Fin.last (n + 1)) + 3 * sig θ ≤ x θ := by
      by_contra hcon
      push Not at hcon
      exact (Props.tw_hist_sum_pos (x θ) (sig θ) hpos (e θ) hlt hcon.1 hcon.2).ne' h0
    rcases hout with h | h
    · have c1 : (∀ i, Gen.eqv (W i) (Flt.lit 0)) ∧ Gen.lt a (E 0) := ⟨hzt, hlo.2 (by linarith)⟩
      have c2 : ¬ ((∀ i, Gen.eqv (W i) (Flt.lit 0)) ∧ Gen.lt (E (Fin.last (n + 1))) a) := fun h' => by
        have := hhi.1 h'.2; linarith
      have h01 : e θ 0 < e θ 1 := hmono (Fin.zero_lt_one)
      have hin : Traced s (Flt.sel ((∀ i, Gen.eqv (W i) (Flt.lit 0)) ∧ Gen.lt a (E 0)) _ (W i)) (fun _ => if i = 0 then (1:ℝ) else 0) θ :=
        Traced.sel (traced_oneHot (s := s) 0 i) (hw i) (fun _ => ⟨rfl, fun hs => ⟨hs, EventuallyEq.rfl⟩⟩) (fun h => absurd c1 h)
      refine Traced.sel (traced_oneHot (s := s) (Fin.last n) i) hin (fun h => absurd h c2) fun _ => ⟨?_, fun hs => ⟨hs, ?_⟩⟩
      · exact Props.triweights_low _ _ hpos _ hmono (by linarith) i
      · have cx := ha.continuousAt hs
        have cs := hb.continuousAt hs
        have ce := fun j => (he j).continuousAt hs
        filter_upwards [(continuousAt_const (y := (0:ℝ))).eventually_lt cs hpos, eventually_strictMono ce hmono,
          cx.eventually_lt ((ce 1).sub (continuousAt_const.mul cs)) (show x θ < e θ 1 - 3 * sig θ by linarith)] with y h1 h2 h3
        exact Props.triweights_low _ _ h1 _ h2 h3 i
    · have c1 : (∀ i, Gen.eqv (W i) (Flt.lit 0)) ∧ Gen.lt (E (Fin.last (n + 1))) a := ⟨hzt, hhi.2 (by linarith)⟩
      have c2 : ¬ ((∀ i, Gen.eqv (W i) (Flt.lit 0)) ∧ Gen.lt a (E 0)) := fun h' => by
        have := hlo.1 h'.2; linarith
      have hin : Traced False (Flt.sel ((∀ i, Gen.eqv (W i) (Flt.lit 0)) ∧ Gen.lt a (E 0)) _ (W i)) (fun θ => H θ i / (if Jnp.sum (H θ) = 0 then 1 else Jnp.sum (H θ))) θ :=
        Traced.sel (traced_oneHot (s := s) 0 i) (hw i) (fun h => absurd h c2) (fun _ => ⟨rfl, fun hs => hs.elim⟩)
      have h01 : e θ (Fin.last n).castSucc < e θ (Fin.last (n + 1)) := hmono (Fin.castSucc_lt_last _)
      refine Traced.sel (traced_oneHot (s := s) (Fin.last n) i) hin (fun _ => ⟨?_, fun hs => ⟨hs, ?_⟩⟩) fun h => absurd c1 h
      · exact Props.triweights_high _ _ hpos _ hmono (by linarith) i
      · have cx := ha.continuousAt hs
        have cs := hb.continuousAt hs
        have ce := fun j => (he j).continuousAt hs
        filter_upwards [(continuousAt_const (y := (0:ℝ))).eventually_lt cs hpos, eventually_strictMono ce hmono,
          ((ce _).add (continuousAt_const.mul cs)).eventually_lt cx (show e θ (Fin.last n).castSucc + 3 * sig θ < x θ by linarith)] with y h1 h2 h3
        exact Props.triweights_high _ _ h1 _ h2 h3 i
  · have hnz : ¬ ∀ i, Gen.eqv (W i) (Flt.lit 0) := by
      rw [hz']
      intro h
      rw [if_neg h0] at h
      refine h0 ?_
      refine Finset.sum_eq_zero fun i _ => ?_
      have := h i
      rwa [div_eq_zero_iff, or_iff_left h0] at this
    have hin : Traced s (Flt.sel ((∀ i, Gen.eqv (W i) (Flt.lit 0)) ∧ Gen.lt a (E 0)) _ (W i)) (fun θ => H θ i / (if Jnp.sum (H θ) = 0 then 1 else Jnp.sum (H θ))) θ :=
      Traced.sel (traced_oneHot (s := s) 0 i) (hw i) (fun h => absurd h.1 hnz) (fun _ => ⟨rfl, fun hs => ⟨⟨hs, h0⟩, EventuallyEq.rfl⟩⟩)
    refine Traced.sel (traced_oneHot (s := s) (Fin.last n) i) hin (fun h => absurd h.1 hnz) fun _ => ⟨?_, fun hs => ⟨hs, ?_⟩⟩
    · rw [if_neg h0]; exact Props.triweights_of_sum_ne _ _ _ h0 i
    · filter_upwards [(hS.continuousAt hs).eventually_ne h0] with y hy
      rw [if_neg hy]; exact Props.triweights_of_sum_ne _ _ _ hy i

/-! ### interpolation -/

theorem traced_interpLR [Jnp.Dtype] {s1 : Prop} {c l r : Rv ι} {u v z : (ι → ℝ) → ℝ} {a b : Fin (n + 2) → Rv ι}
    {xp fp : (ι → ℝ) → Fin (n + 2) → ℝ} (hc : Traced s1 c u θ) (hcont : s → ContinuousAt u θ) (ha : TV s a xp θ) (hb : TV s b fp θ)
    (hl : Traced s l v θ) (hr : Traced s r z θ) :
    Traced (s ∧ Jnp.Resolved (xp θ) ∧ (u θ < xp θ 0 ∨ xp θ (Fin.last (n + 1)) < u θ ∨ (s1 ∧ ∀ j, u θ ≠ xp θ j)))
      (Gen.interpLR c a b l r) (fun θ => Jnp.interpLR (u θ) (xp θ) (fp θ) (v θ) (z θ)) θ := by
  classical
  have hcell : Gen.interpCell a c = Jnp.interpCell (xp θ) (u θ) := cell_eq ha.rep hc.rep
  unfold Gen.interpLR
  simp only
  rw [hcell]
  set i := Jnp.interpCell (xp θ) (u θ) with hi
  have tf : ∀ j, Traced s (Flt.take b j) (fun θ => fp θ j) θ := fun j => Traced.take hb j
  have tx : ∀ j, Traced s (Flt.take a j) (fun θ => xp θ j) θ := fun j => Traced.take ha j
  have hdx := (tx i.succ).sub (tx i.castSucc)
  have hg : XFSed.abs (Flt.value (Flt.take a i.succ - Flt.take a i.castSucc)) ≤ XF.fin Jnp.Dtype.interpEps ↔
      |xp θ i.succ - xp θ i.castSucc| ≤ Jnp.Dtype.interpEps := (rep_abs hdx.rep).le_iff (Rep.fin _)
  set g : Prop := XFSed.abs (Flt.value (Flt.take a i.succ - Flt.take a i.castSucc)) ≤ XF.fin Jnp.Dtype.interpEps with hgdef
  have hev : s → ¬ g → ∀ᶠ y in 𝓝 θ, ¬ |xp y i.succ - xp y i.castSucc| ≤ Jnp.Dtype.interpEps := fun hs hng => by
    have := (hdx.continuousAt hs).abs
    filter_upwards [(continuousAt_const (y := (Jnp.Dtype.interpEps : ℝ))).eventually_lt this (not_le.1 fun h => hng (hg.2 h))] with y hy
    exact not_le.2 hy
  have hD : Traced (s ∧ ¬ g) (Flt.sel g (Flt.lit 1) (Flt.take a i.succ - Flt.take a i.castSucc))
      (fun θ => if |xp θ i.succ - xp θ i.castSucc| ≤ Jnp.Dtype.interpEps then 1 else xp θ i.succ - xp θ i.castSucc) θ :=
    Traced.sel (Traced.lit (s := s) 1) hdx (fun h => ⟨if_pos (hg.1 h), fun hs => absurd h hs.2⟩)
      (fun h => ⟨if_neg fun h' => h (hg.2 h'), fun hs => ⟨hs.1, (hev hs.1 h).mono fun y hy => if_neg hy⟩⟩)
  have hD0 : (if |xp θ i.succ - xp θ i.castSucc| ≤ Jnp.Dtype.interpEps then 1 else xp θ i.succ - xp θ i.castSucc) ≠ 0 := by
    split_ifs with h
    · norm_num
    · intro h0; rw [h0, abs_zero] at h; exact h Jnp.Dtype.interpEps_nonneg
  let S : Prop := (s ∧ s1) ∧ ¬ g
  have hdel := (hc.weaken (s' := S) fun h => h.1.2).sub ((tx i.castSucc).weaken fun h => h.1.1)
  have hq := hdel.div (hD.weaken (s' := S) fun h => ⟨h.1.1, h.2⟩) hD0
  have hbody := ((tf i.castSucc).weaken (s' := S) fun h => h.1.1).add
    (hq.mul (((tf i.succ).sub (tf i.castSucc)).weaken (s' := S) fun h => h.1.1))
  let Fi : (ι → ℝ) → ℝ := fun θ => if |xp θ i.succ - xp θ i.castSucc| ≤ Jnp.Dtype.interpEps then fp θ i.castSucc else
    fp θ i.castSucc + (u θ - xp θ i.castSucc) / (xp θ i.succ - xp θ i.castSucc) * (fp θ i.succ - fp θ i.castSucc)
  have hf : Traced S (Flt.sel g (Flt.take b i.castSucc) _) Fi θ :=
    Traced.sel (tf i.castSucc) hbody (fun h => ⟨if_pos (hg.1 h), fun hs => absurd h hs.2⟩)
      (fun h => ⟨by
        have h' : ¬ |xp θ i.succ - xp θ i.castSucc| ≤ Jnp.Dtype.interpEps := fun h' => h (hg.2 h')
        simp only [Fi, if_neg h'],
        fun hs => ⟨hs, by
          filter_upwards [hev hs.1.1 h] with y hy
          simp only [Fi, if_neg hy]⟩⟩)
  have hlt0 : Gen.lt c (a 0) ↔ u θ < xp θ 0 := lt_iff hc (ha 0)
  have hgt1 : Gen.lt (a (Fin.last (n + 1))) c ↔ xp θ (Fin.last (n + 1)) < u θ := lt_iff (ha _) hc
  let T : Prop := s ∧ Jnp.Resolved (xp θ) ∧ (u θ < xp θ 0 ∨ xp θ (Fin.last (n + 1)) < u θ ∨ (s1 ∧ ∀ j, u θ ≠ xp θ j))
  have hres : T → ∀ᶠ y in 𝓝 θ, Jnp.Resolved (xp y) := fun hT =>
    Jnp.Resolved.eventually (continuousAt_pi.2 fun j => (ha j).continuousAt hT.1) hT.2.1
  have hin : Traced (T ∧ ¬ (xp θ (Fin.last (n + 1)) < u θ)) (Flt.sel (Gen.lt c (a 0)) l _) (fun θ => if u θ < xp θ 0 then v θ else Fi θ) θ :=
    Traced.sel hl hf (fun h => ⟨if_pos (hlt0.1 h), fun hT => ⟨hT.1.1, by
        filter_upwards [(hcont hT.1.1).eventually_lt ((ha 0).continuousAt hT.1.1) (hlt0.1 h)] with y hy
        exact if_pos hy⟩⟩)
      (fun h => by
        have h' : ¬ u θ < xp θ 0 := fun h' => h (hlt0.2 h')
        refine ⟨if_neg h', fun hT => ?_⟩
        obtain ⟨⟨hs, hr', hcase⟩, hlast⟩ := hT
        have h3 : s1 ∧ ∀ j, u θ ≠ xp θ j := by tauto
        refine ⟨⟨⟨hs, h3.1⟩, fun hg' => hr'.not_guard i (hg.1 hg')⟩, ?_⟩
        filter_upwards [((ha 0).continuousAt hs).eventually_lt (hcont hs) (lt_of_le_of_ne (not_lt.1 h') (h3.2 0).symm)] with y hy
        exact if_neg (not_lt.2 hy.le))
  refine Traced.sel hr hin ?_ ?_
  · intro h
    refine ⟨Jnp.interp_of_gt (hgt1.1 h), fun hT => ⟨hT.1, ?_⟩⟩
    filter_upwards [((ha _).continuousAt hT.1).eventually_lt (hcont hT.1) (hgt1.1 h)] with y hy
    exact Jnp.interp_of_gt hy
  · intro h
    have h' : ¬ xp θ (Fin.last (n + 1)) < u θ := fun h' => h (hgt1.2 h')
    refine ⟨?_, fun hT => ⟨⟨hT, h'⟩, ?_⟩⟩
    · show (if u θ > xp θ (Fin.last (n + 1)) then z θ else if u θ < xp θ 0 then v θ else Fi θ) = _
      rw [if_neg h']
    · obtain ⟨hs, hr', hcase⟩ := hT
      rcases hcase with h1 | h1 | ⟨h1, h2⟩
      · filter_upwards [hres ⟨hs, hr', Or.inl h1⟩, (hcont hs).eventually_lt ((ha 0).continuousAt hs) h1] with y hy1 hy2
        rw [Jnp.interp_of_lt hy1.strictMono.monotone hy2, if_pos hy2]
      · exact absurd h1 h'
      · by_cases h0 : u θ < xp θ 0
        · filter_upwards [hres ⟨hs, hr', Or.inl h0⟩, (hcont hs).eventually_lt ((ha 0).continuousAt hs) h0] with y hy1 hy2
          rw [Jnp.interp_of_lt hy1.strictMono.monotone hy2, if_pos hy2]
        · have hm := hr'.strictMono.monotone
          have e1 : xp θ i.castSucc < u θ := lt_of_le_of_ne (Jnp.interpCell_left hm (not_lt.1 h0)) (h2 _).symm
          have e2 : u θ < xp θ i.succ := lt_of_le_of_ne (Jnp.interpCell_right hm (not_lt.1 h')) (h2 _)
          filter_upwards [hres ⟨hs, hr', Or.inr (Or.inr ⟨h1, h2⟩)⟩, ((ha _).continuousAt hs).eventually_lt (hcont hs) e1,
            (hcont hs).eventually_lt ((ha _).continuousAt hs) e2] with y hy1 hy2 hy3
          have hmy := hy1.strictMono.monotone
          have a0 : xp y 0 ≤ u y := (hmy (Fin.zero_le _)).trans hy2.le
          rw [if_neg (not_lt.2 a0), Jnp.interp_of_mem a0 (hy3.le.trans (hmy (Fin.le_last _)))]
          unfold Jnp.interpBody
          rw [Jnp.interpCell_eq hmy i hy2.le hy3]

theorem traced_interp [Jnp.Dtype] {s1 : Prop} {c : Rv ι} {u : (ι → ℝ) → ℝ} {a b : Fin (n + 2) → Rv ι}
    {xp fp : (ι → ℝ) → Fin (n + 2) → ℝ} (hc : Traced s1 c u θ) (hcont : s → ContinuousAt u θ) (ha : TV s a xp θ) (hb : TV s b fp θ) :
    Traced (s ∧ Jnp.Resolved (xp θ) ∧ (u θ < xp θ 0 ∨ xp θ (Fin.last (n + 1)) < u θ ∨ (s1 ∧ ∀ j, u θ ≠ xp θ j)))
      (Gen.interp c a b) (fun θ => Jnp.interp (u θ) (xp θ) (fp θ)) θ :=
  traced_interpLR hc hcont ha hb (hb 0) (hb _)

theorem _root_.Rev.Fixed.const {β : Type} (b : β) : Fixed (fun _ : ι → ℝ => b) θ := Eventually.of_forall fun _ => rfl

theorem traced_interpLR_fixed [Jnp.Dtype] {c l r : Rv ι} {u v z : (ι → ℝ) → ℝ} {a b : Fin (n + 2) → Rv ι}
    {xp fp : (ι → ℝ) → Fin (n + 2) → ℝ} (hc : Traced s c u θ) (ha : TV s a xp θ) (hb : TV s b fp θ)
    (hl : Traced s l v θ) (hr : Traced s r z θ) (hu : Fixed u θ) (hx : Fixed xp θ) :
    Traced s (Gen.interpLR c a b l r) (fun θ => Jnp.interpLR (u θ) (xp θ) (fp θ) (v θ) (z θ)) θ := by
  classical
  have hcell : Gen.interpCell a c = Jnp.interpCell (xp θ) (u θ) := cell_eq ha.rep hc.rep
  unfold Gen.interpLR
  simp only
  rw [hcell]
  set i := Jnp.interpCell (xp θ) (u θ) with hi
  have tf : ∀ j, Traced s (Flt.take b j) (fun θ => fp θ j) θ := fun j => Traced.take hb j
  have tx : ∀ j, Traced s (Flt.take a j) (fun θ => xp θ j) θ := fun j => Traced.take ha j
  have hdx := (tx i.succ).sub (tx i.castSucc)
  have hg : XFSed.abs (Flt.value (Flt.take a i.succ - Flt.take a i.castSucc)) ≤ XF.fin Jnp.Dtype.interpEps ↔
      |xp θ i.succ - xp θ i.castSucc| ≤ Jnp.Dtype.interpEps := (rep_abs hdx.rep).le_iff (Rep.fin _)
  set g : Prop := XFSed.abs (Flt.value (Flt.take a i.succ - Flt.take a i.castSucc)) ≤ XF.fin Jnp.Dtype.interpEps with hgdef
  have hD : Traced s (Flt.sel g (Flt.lit 1) (Flt.take a i.succ - Flt.take a i.castSucc))
      (fun θ => if g then 1 else xp θ i.succ - xp θ i.castSucc) θ :=
    Traced.sel (Traced.lit (s := s) 1) hdx
      (fun h => ⟨if_pos h, fun hs => ⟨hs, Eventually.of_forall fun y => if_pos h⟩⟩)
      (fun h => ⟨if_neg h, fun hs => ⟨hs, Eventually.of_forall fun y => if_neg h⟩⟩)
  have hD0 : (if g then 1 else xp θ i.succ - xp θ i.castSucc) ≠ 0 := by
    split_ifs with h
    · norm_num
    · intro h0; rw [hg, h0, abs_zero] at h; exact h Jnp.Dtype.interpEps_nonneg
  have hbody := (tf i.castSucc).add (((hc.sub (tx i.castSucc)).div hD hD0).mul ((tf i.succ).sub (tf i.castSucc)))
  have hf : Traced s (Flt.sel g (Flt.take b i.castSucc) _) (fun θ => if g then fp θ i.castSucc else
      fp θ i.castSucc + (u θ - xp θ i.castSucc) / (xp θ i.succ - xp θ i.castSucc) * (fp θ i.succ - fp θ i.castSucc)) θ :=
    Traced.sel (tf i.castSucc) hbody (fun h => ⟨if_pos h, fun hs => ⟨hs, Eventually.of_forall fun y => if_pos h⟩⟩)
      (fun h => ⟨by simp only [if_neg h], fun hs => ⟨hs, Eventually.of_forall fun y => by simp only [if_neg h]⟩⟩)
  have hlt0 : Gen.lt c (a 0) ↔ u θ < xp θ 0 := lt_iff hc (ha 0)
  have hgt1 : Gen.lt (a (Fin.last (n + 1))) c ↔ xp θ (Fin.last (n + 1)) < u θ := lt_iff (ha _) hc
  have hin := Traced.sel (s := s) (c := Gen.lt c (a 0)) (F := fun y => if u θ < xp θ 0 then v y else if g then fp y i.castSucc else
      fp y i.castSucc + (u y - xp y i.castSucc) / (xp y i.succ - xp y i.castSucc) * (fp y i.succ - fp y i.castSucc)) hl hf
    (fun h => ⟨if_pos (hlt0.1 h), fun hs => ⟨hs, Eventually.of_forall fun y => if_pos (hlt0.1 h)⟩⟩)
    (fun h => ⟨if_neg fun h' => h (hlt0.2 h'), fun hs => ⟨hs, Eventually.of_forall fun y => if_neg fun h' => h (hlt0.2 h')⟩⟩)
  have key : ∀ y, u y = u θ → xp y = xp θ → ¬ xp θ (Fin.last (n + 1)) < u θ → Jnp.interpLR (u y) (xp y) (fp y) (v y) (z y) =
      if u θ < xp θ 0 then v y else if g then fp y i.castSucc else
      fp y i.castSucc + (u y - xp y i.castSucc) / (xp y i.succ - xp y i.castSucc) * (fp y i.succ - fp y i.castSucc) := by
    intro y h1 h2 h3
    unfold Jnp.interpLR Jnp.interpBody
    rw [h1, h2, if_neg (show ¬ u θ > Jnp.last (xp θ) from h3)]
    simp only [hg, ← hi]
  refine Traced.sel hr hin ?_ ?_
  · intro h
    refine ⟨Jnp.interp_of_gt (hgt1.1 h), fun hs => ⟨hs, ?_⟩⟩
    filter_upwards [hu, hx] with y h1 h2
    exact Jnp.interp_of_gt (by rw [h1, h2]; exact hgt1.1 h)
  · intro h
    have h' : ¬ xp θ (Fin.last (n + 1)) < u θ := fun h' => h (hgt1.2 h')
    refine ⟨key θ rfl rfl h', fun hs => ⟨hs, ?_⟩⟩
    filter_upwards [hu, hx] with y h1 h2
    exact key y h1 h2 h'

theorem traced_interp_fixed [Jnp.Dtype] {c : Rv ι} {u : (ι → ℝ) → ℝ} {a b : Fin (n + 2) → Rv ι}
    {xp fp : (ι → ℝ) → Fin (n + 2) → ℝ} (hc : Traced s c u θ) (ha : TV s a xp θ) (hb : TV s b fp θ) (hu : Fixed u θ) (hx : Fixed xp θ) :
    Traced s (Gen.interp c a b) (fun θ => Jnp.interp (u θ) (xp θ) (fp θ)) θ :=
  traced_interpLR_fixed hc ha hb (hb 0) (hb _) hu hx

end Dsps.Lemmas
