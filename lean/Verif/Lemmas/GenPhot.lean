import Verif.Lemmas.GenUtils
import Verif.Props.SmoothBurst
import Verif.Props.NonFinitePhot

/-! The cosmology, photometry and burst functions, recorded for differentiation, are `Traced`. -/
namespace Dsps.Lemmas
open Rev XF Topology Filter Dsps.Constants Spec

variable {ι : Type} [Fintype ι] {s : Prop} {θ : ι → ℝ} {n m k w : ℕ}

/-! ### sigmoids -/

theorem traced_sigmoid {a b c d e : Rv ι} {x x0 q lo hi : (ι → ℝ) → ℝ} (h1 : Traced s a x θ) (h2 : Traced s b x0 θ)
    (h3 : Traced s c q θ) (h4 : Traced s d lo θ) (h5 : Traced s e hi θ) :
    Traced s (Gen.sigmoid a b c d e) (fun θ => Utils.sigmoid (x θ) (x0 θ) (q θ) (lo θ) (hi θ)) θ :=
  h4.add ((h5.sub h4).mul ((h3.mul (h1.sub h2)).logistic))

theorem traced_inverse_sigmoid {a b c d e : Rv ι} {y x0 q lo hi : (ι → ℝ) → ℝ} (h1 : Traced s a y θ) (h2 : Traced s b x0 θ)
    (h3 : Traced s c q θ) (h4 : Traced s d lo θ) (h5 : Traced s e hi θ) (hlo : lo θ < y θ) (hhi : y θ < hi θ) (hq : q θ ≠ 0) :
    Traced s (Gen.inverse_sigmoid a b c d e) (fun θ => Utils.inverse_sigmoid (y θ) (x0 θ) (q θ) (lo θ) (hi θ)) θ := by
  have hd : y θ - lo θ ≠ 0 := (sub_pos.2 hlo).ne'
  have hp : 0 < (hi θ - lo θ) / (y θ - lo θ) - 1 := by
    rw [sub_pos, lt_div_iff₀ (sub_pos.2 hlo)]; linarith
  exact h2.sub (((((h5.sub h4).div (h1.sub h4) hd).sub (Traced.lit 1)).log hp).div h3 hq)

theorem traced_sig_slope {a b b2 c c2 d e : Rv ι} {x xtp ytp x0 q lo hi : (ι → ℝ) → ℝ} (h1 : Traced s a x θ) (h2 : Traced s b xtp θ)
    (h2' : Traced s b2 ytp θ) (h3 : Traced s c x0 θ) (h3' : Traced s c2 q θ) (h4 : Traced s d lo θ) (h5 : Traced s e hi θ) :
    Traced s (Gen.sig_slope a b b2 c c2 d e) (fun θ => Utils.sig_slope (x θ) (xtp θ) (ytp θ) (x0 θ) (q θ) (lo θ) (hi θ)) θ :=
  h2'.add ((traced_sigmoid h1 h3 h3' h4 h5).mul (h1.sub h2))

theorem traced_tw_sigmoid {a b c d e : Rv ι} {x x0 q lo hi : (ι → ℝ) → ℝ} (h1 : Traced s a x θ) (h2 : Traced s b x0 θ)
    (h3 : Traced s c q θ) (h4 : Traced s d lo θ) (h5 : Traced s e hi θ) (hq : q θ ≠ 0) :
    Traced s (Gen.tw_sigmoid a b c d e) (fun θ => Utils.tw_sigmoid (x θ) (x0 θ) (q θ) (lo θ) (hi θ)) θ :=
  h4.add ((h5.sub h4).mul (traced_tw_cuml h1 h2 h3 hq))

theorem traced_tw_sig_slope {a b b2 c c2 d e : Rv ι} {x xtp ytp x0 q lo hi : (ι → ℝ) → ℝ} (h1 : Traced s a x θ) (h2 : Traced s b xtp θ)
    (h2' : Traced s b2 ytp θ) (h3 : Traced s c x0 θ) (h3' : Traced s c2 q θ) (h4 : Traced s d lo θ) (h5 : Traced s e hi θ) (hq : q θ ≠ 0) :
    Traced s (Gen.tw_sig_slope a b b2 c c2 d e) (fun θ => Utils.tw_sig_slope (x θ) (xtp θ) (ytp θ) (x0 θ) (q θ) (lo θ) (hi θ)) θ :=
  h2'.add ((traced_tw_sigmoid h1 h3 h3' h4 h5 hq).mul (h1.sub h2))

/-! ### bursts -/

theorem hasDerivAt_twp (z : ℝ) : ∃ d, HasDerivAt twp d z ∧ HasDerivAt (fun z => if z < -3 ∨ 3 < z then 0 else twp z) (if z < -3 ∨ 3 < z then 0 else d) z := by
  have hp : DifferentiableAt ℝ twp z := by unfold twp; fun_prop
  refine ⟨deriv twp z, hp.hasDerivAt, ?_⟩
  have hc : HasDerivAt twc (deriv twc z) z := ((contDiff_twc.differentiable (by norm_num)) z).hasDerivAt
  have e : (fun z => if z < -3 ∨ 3 < z then 0 else twp z) = twc := by funext z; rfl
  rw [e]
  refine hc.congr_deriv ?_
  have hz0 : ∀ z, z ≤ -3 ∨ 3 ≤ z → deriv twc z = 0 := by
    have h1 : ∀ y, twc y = 35 / 96 * max 0 (1 - (y / 3) ^ 2) ^ 3 := twc_eq_max
    intro z hz
    have hd : HasDerivAt (fun y : ℝ => 1 - (y / 3) ^ 2) (-(2 * (z / 3) * (1 / 3))) z := by
      have := ((((hasDerivAt_id z).div_const 3).pow 2).const_sub 1)
      simpa using this
    have h2 := ((hasDerivAt_max_pow 1 (1 - (z / 3) ^ 2)).comp z hd).const_mul (35 / 96 : ℝ)
    have h3 : max 0 (1 - (z / 3) ^ 2) = 0 := by
      apply max_eq_left
      rcases hz with h | h <;> nlinarith
    rw [show twc = fun y => 35 / 96 * max 0 (1 - (y / 3) ^ 2) ^ 3 from funext h1]
    have h4 := h2.deriv
    simp only [Function.comp_def] at h4
    refine h4.trans ?_
    rw [h3]; simp
  have hd : ∀ z : ℝ, HasDerivAt twp (35 / 96 * (3 * (1 - (z / 3) ^ 2) ^ 2 * -(2 * (z / 3) * (1 / 3)))) z := by
    intro z
    have hd : HasDerivAt (fun y : ℝ => 1 - (y / 3) ^ 2) (-(2 * (z / 3) * (1 / 3))) z := by
      have := ((((hasDerivAt_id z).div_const 3).pow 2).const_sub 1)
      simpa using this
    have := (hd.pow 3).const_mul (35 / 96 : ℝ)
    refine HasDerivAt.congr_deriv (f := twp) this ?_
    push_cast; ring
  split_ifs with h
  · exact hz0 z (h.imp le_of_lt le_of_lt)
  · push Not at h
    rcases h.1.lt_or_eq with h1 | h1
    · rcases h.2.lt_or_eq with h2 | h2
      · refine Filter.EventuallyEq.deriv_eq ?_
        filter_upwards [Ioi_mem_nhds h1, Iio_mem_nhds h2] with y hy1 hy2
        show (if y < -3 ∨ y > 3 then 0 else twp y) = twp y
        rw [if_neg]; push Not; exact ⟨le_of_lt hy1, le_of_lt hy2⟩
      · rw [hz0 z (Or.inr h2.ge), (hd z).deriv, h2]; norm_num
    · rw [hz0 z (Or.inl h1.ge), (hd z).deriv, ← h1]; norm_num

theorem traced_tw_gauss {a b c : Rv ι} {x u h : (ι → ℝ) → ℝ} (ha : Traced s a x θ) (hb : Traced s b u θ) (hc : Traced s c h θ)
    (h0 : h θ ≠ 0) : Traced s (Gen.triweight_gaussian a b c) (fun θ => Utils.triweight_gaussian (x θ) (u θ) (h θ)) θ := by
  have hz := (ha.sub hb).div hc h0
  set z : (ι → ℝ) → ℝ := fun θ => (x θ - u θ) / h θ with hzdef
  have hV : Traced s _ (fun θ => twp (z θ) / h θ) θ := ((((Traced.lit 35).div (Traced.lit 96) (by norm_num)).mul
    (((Traced.lit 1).sub ((hz.div (Traced.lit 3) (by norm_num)).ipow 2)).ipow 3)).div hc h0)
  have e : (fun θ => Utils.triweight_gaussian (x θ) (u θ) (h θ)) = fun θ => (if z θ < -3 ∨ 3 < z θ then 0 else twp (z θ)) / h θ := by
    funext θ; rw [triweight_gaussian_eq]; rfl
  rw [e]
  have hmask : (Gen.lt ((a - b) / c) (-(Flt.lit 3)) ∨ Gen.lt (Flt.lit 3) ((a - b) / c)) ↔ (z θ < -3 ∨ 3 < z θ) :=
    or_congr (lt_iff hz (Traced.lit (s := s) (3:ℝ)).neg) (lt_iff (Traced.lit (s := s) (3:ℝ)) hz)
  obtain ⟨d, hd1, hd2⟩ := hasDerivAt_twp (z θ)
  have hz0 := hz
  have hc0 := hc
  obtain ⟨g, g1, g2, -, g3⟩ := hz0
  obtain ⟨q, q1, q2, -, q3⟩ := hc0
  have hinv : s → HasFDerivAt (fun θ => (h θ)⁻¹) (-(h θ ^ 2)⁻¹ • lin q) θ := fun hs => (hasDerivAt_inv h0).comp_hasFDerivAt θ (q3 hs)
  refine Traced.sel' (c := Gen.lt ((a - b) / c) (-(Flt.lit 3)) ∨ Gen.lt (Flt.lit 3) ((a - b) / c)) (Traced.lit (s := s) 0) hV ?_ ?_
  · intro hcc
    have hm := hmask.1 hcc
    refine ⟨by simp only [if_pos hm, zero_div], fun hs => ⟨hs, fun L hL => ?_⟩⟩
    refine hL.congr_of_eventuallyEq ?_
    rcases hm with hm | hm
    · filter_upwards [(g3 hs).continuousAt.eventually_lt continuousAt_const hm] with y hy
      simp only [if_pos (Or.inl hy : z y < -3 ∨ 3 < z y), zero_div]
    · filter_upwards [continuousAt_const.eventually_lt (g3 hs).continuousAt hm] with y hy
      simp only [if_pos (Or.inr hy : z y < -3 ∨ 3 < z y), zero_div]
  · intro hcc
    have hm : ¬ (z θ < -3 ∨ 3 < z θ) := fun h => hcc (hmask.2 h)
    refine ⟨by simp only [if_neg hm], fun hs => ⟨hs, fun L hL => ?_⟩⟩
    rw [if_neg hm] at hd2
    have k1 := (hd1.comp_hasFDerivAt θ (g3 hs)).mul (hinv hs)
    have k2 := (hd2.comp_hasFDerivAt θ (g3 hs)).mul (hinv hs)
    have : L = _ := hL.unique k1
    rw [this]
    refine k2.congr_fderiv ?_
    simp only [Function.comp, if_neg hm]

theorem TV.pureburst {l : (ι → ℝ) → Fin n → ℝ} {p q : (ι → ℝ) → ℝ} {l' : Fin n → Rv ι} {p' q' : Rv ι} (hl : TV s l' l θ)
    (hp : Traced s p' p θ) (hq : Traced s q' q θ) (hpq : p θ < q θ) :
    TV (s ∧ ∃ i, l θ i ∈ Props.BurstSupport (p θ) (q θ)) (Gen.pureburst_age_weights_from_params l' p' q')
      (fun θ => Diffburst.pureburst_age_weights_from_params (l θ) (p θ) (q θ)) θ := by
  have hmin := hp.sub (hq.sub hp)
  have hx0 := (Traced.lit (0.5:ℝ)).mul (hmin.add hq)
  have hh := (hq.sub hmin).div (Traced.lit 6) (by norm_num)
  have hh0 : (q θ - (p θ - (q θ - p θ))) / 6 ≠ 0 := by
    have : 0 < q θ - (p θ - (q θ - p θ)) := by linarith
    positivity
  have hg := fun j => traced_tw_gauss (hl j) hx0 hh hh0
  set g : (ι → ℝ) → Fin n → ℝ := fun θ j => Utils.triweight_gaussian (l θ j) (0.5 * (p θ - (q θ - p θ) + q θ)) ((q θ - (p θ - (q θ - p θ))) / 6) with hgdef
  have hnn : ∀ i, 0 ≤ g θ i := by
    intro i
    by_cases hi : l θ i ∈ Props.BurstSupport (p θ) (q θ)
    · exact (Props.tw_burst_pos hpq hi).le
    · exact (Props.tw_burst_zero hpq hi).ge
  have hS : Traced s _ (fun θ => Jnp.sum (g θ)) θ := Traced.sum hg
  have hle := le_iff hS (Traced.lit (s := s) (0:ℝ))
  have hN : Traced (s ∧ ∃ i, l θ i ∈ Props.BurstSupport (p θ) (q θ)) _ (fun θ => if Jnp.sum (g θ) ≤ 0 then 1 else Jnp.sum (g θ)) θ :=
    Traced.sel (c := Gen.le _ (Flt.lit 0)) (Traced.lit (s := s) 1) hS
      (F := fun θ => if Jnp.sum (g θ) ≤ 0 then 1 else Jnp.sum (g θ))
      (fun hc => ⟨if_pos (hle.1 hc), fun hs => absurd (hle.1 hc) (not_le.2 (by
        obtain ⟨j, hj⟩ := hs.2
        exact Finset.sum_pos' (fun i _ => hnn i) ⟨j, Finset.mem_univ _, Props.tw_burst_pos hpq hj⟩))⟩)
      (fun hc => ⟨if_neg fun h => hc (hle.2 h), fun hs => ⟨hs.1, by
        filter_upwards [(continuousAt_const (y := (0:ℝ))).eventually_lt (hS.continuousAt hs.1) (not_le.1 fun h => hc (hle.2 h))] with y hy
        exact if_neg (not_le.2 hy)⟩⟩)
  have hN0 : (if Jnp.sum (g θ) ≤ 0 then 1 else Jnp.sum (g θ)) ≠ 0 := by
    split_ifs with h
    · norm_num
    · exact (not_le.1 h).ne'
  exact fun i => ((hg i).weaken And.left).div hN hN0

theorem TV.bursty {S a : (ι → ℝ) → Fin n → ℝ} {f p q : (ι → ℝ) → ℝ} {S' a' : Fin n → Rv ι} {f' p' q' : Rv ι} (hS : TV s S' S θ)
    (ha : TV s a' a θ) (hf : Traced s f' f θ) (hp : Traced s p' p θ) (hq : Traced s q' q θ) (hpq : p θ < q θ) :
    TV (s ∧ ∃ i, a θ i + 9 ∈ Props.BurstSupport (p θ) (q θ)) (Gen.calc_bursty_age_weights f' p' q' S' a')
      (fun θ => Diffburst.calc_bursty_age_weights ⟨f θ, p θ, q θ⟩ (S θ) (a θ)) θ := by
  have e9 : (9.0:ℝ) = 9 := by norm_num
  have hl : TV s (fun i => a' i + Flt.lit 9.0) (fun θ i => a θ i + 9.0) θ := fun i => (ha i).add (Traced.lit _)
  intro i
  have hb := (hl.pureburst hp hq hpq i)
  have h1 : Traced (s ∧ ∃ i, a θ i + 9.0 ∈ Props.BurstSupport (p θ) (q θ)) _ _ θ :=
    ((hf.exp10.weaken And.left).mul hb).add ((((Traced.lit 1).sub hf.exp10).mul (hS i)).weaken And.left)
  refine h1.weaken ?_
  rw [e9]; exact id

theorem TV.bursty_u {S a : (ι → ℝ) → Fin n → ℝ} {f p q : (ι → ℝ) → ℝ} {S' a' : Fin n → Rv ι} {f' p' q' : Rv ι} (hS : TV s S' S θ)
    (ha : TV s a' a θ) (hf : Traced s f' f θ) (hp : Traced s p' p θ) (hq : Traced s q' q θ) :
    TV (s ∧ ∃ i, a θ i + 9 ∈ Props.BurstSupport (Diffburst.get_params_from_u_params ⟨f θ, p θ, q θ⟩).lgyr_peak
        (Diffburst.get_params_from_u_params ⟨f θ, p θ, q θ⟩).lgyr_max)
      (Gen.calc_bursty_age_weights_from_u_params f' p' q' S' a')
      (fun θ => Diffburst.calc_bursty_age_weights_from_u_params ⟨f θ, p θ, q θ⟩ (S θ) (a θ)) θ := by
  have hF : Traced s (Gen.get_lgfburst_from_u_lgfburst f') (fun θ => Diffburst.get_lgfburst_from_u_lgfburst (f θ)) θ :=
    traced_sigmoid hf (Traced.lit Diffburst.LGFB_X0) (Traced.lit Diffburst.LGFB_K) (Traced.lit Diffburst.LGFBURST_MIN)
    (Traced.lit Diffburst.LGFBURST_MAX)
  have hP : Traced s (Gen.get_lgyr_peak_from_u_lgyr_peak p') (fun θ => Diffburst.get_lgyr_peak_from_u_lgyr_peak (p θ)) θ :=
    traced_sigmoid hp ((Traced.lit 0.5).mul ((Traced.lit (Diffburst.LGAGE_MAX - Diffburst.DLGAGE_MIN)).add (Traced.lit Diffburst.LGYR_PEAK_MIN)))
      (Traced.lit Diffburst.LGAGE_K) (Traced.lit _) (Traced.lit _)
  have hlo := hP.add (Traced.lit Diffburst.DLGAGE_MIN)
  have hQ : Traced s (Gen.get_lgyr_max_from_lgyr_peak (Gen.get_lgyr_peak_from_u_lgyr_peak p') q')
      (fun θ => Diffburst.get_lgyr_max_from_lgyr_peak (Diffburst.get_lgyr_peak_from_u_lgyr_peak (p θ)) (q θ)) θ :=
    traced_sigmoid hq ((Traced.lit 0.5).mul ((Traced.lit Diffburst.LGAGE_MAX).add hlo)) (Traced.lit _) hlo (Traced.lit _)
  have hb := Props.C27_burst_bounds ⟨f θ, p θ, q θ⟩
  have hpq : Diffburst.get_lgyr_peak_from_u_lgyr_peak (p θ)
      < Diffburst.get_lgyr_max_from_lgyr_peak (Diffburst.get_lgyr_peak_from_u_lgyr_peak (p θ)) (q θ) := by
    have h2 := hb
    unfold Props.BurstInBounds Diffburst.get_params_from_u_params Diffburst.get_tburst_params_from_tburst_u_params at h2
    simp only at h2
    linarith [h2.2.2.1]
  have H := hS.bursty ha hF hP hQ hpq
  unfold Gen.calc_bursty_age_weights_from_u_params Diffburst.calc_bursty_age_weights_from_u_params
  simp only [Diffburst.get_params_from_u_params, Diffburst.get_tburst_params_from_tburst_u_params]
  exact H

/-! ### cosmology -/

theorem traced_Ez {a b c d : Rv ι} {z O v u : (ι → ℝ) → ℝ} (ha : Traced s a z θ) (hb : Traced s b O θ) (hc : Traced s c v θ)
    (hd : Traced s d u θ) (hz : -1 < z θ) (hO : PhysicalOm (O θ)) :
    Traced s (Gen.Ez a b c d) (fun θ => FlatWcdm.Ez (z θ) (O θ) (v θ) (u θ)) θ := by
  have h1 : Traced s (Flt.lit 1.0 : Rv ι) (fun _ => (1.0:ℝ)) θ := Traced.lit _
  have h3 := (Traced.lit (s := s) (θ := θ) (ι := ι) (3.0:ℝ)).neg
  have hpos : (0:ℝ) < 1.0 + z θ := by norm_num; linarith
  have hzp := h1.add ha
  have hA := h1.div hzp hpos.ne'
  have hApos : (0:ℝ) < 1.0 / (1.0 + z θ) := by positivity
  have hde := (hA.pow (h3.mul ((h1.add hc).add hd)) hApos).mul (((h3.mul hd).mul (h1.sub hA)).exp)
  have ht := (hb.mul (hzp.ipow 3)).add ((h1.sub hb).mul hde)
  refine ht.sqrt ?_
  have h := Ez_pos hz hO (v θ) (u θ)
  unfold FlatWcdm.Ez at h
  simp only at h
  exact Real.sqrt_pos.1 h

theorem TV.linspace {a b : Rv ι} {x y : (ι → ℝ) → ℝ} (ha : Traced s a x θ) (hb : Traced s b y θ) (n : ℕ) :
    TV s (Gen.linspace a b n) (fun θ => Jnp.linspace (x θ) (y θ) n) θ := by
  intro i
  unfold Gen.linspace Jnp.linspace
  by_cases h : i = Fin.last (n + 1)
  · simp only [if_pos h]; exact hb
  · simp only [if_neg h]
    have hs := (Traced.lit (s := s) (θ := θ) (ι := ι) ((i : ℕ) : ℝ)).div (Traced.lit ((n : ℝ) + 1)) (by positivity)
    exact (ha.mul ((Traced.lit 1).sub hs)).add (hb.mul hs)

section cosmo
variable {a b c d e : Rv ι} {z O v u h : (ι → ℝ) → ℝ} (ha : Traced s a z θ) (hb : Traced s b O θ) (hc : Traced s c v θ)
    (hd : Traced s d u θ) (he : Traced s e h θ) (hz : -1 < z θ) (hO : PhysicalOm (O θ)) (hh : h θ ≠ 0)
include ha hb hc hd he hz hO hh

theorem traced_comoving : Traced s (Gen.comoving_distance_to_z a b c d e)
    (fun θ => FlatWcdm.comoving_distance_to_z (z θ) (O θ) (v θ) (u θ) (h θ)) θ := by
  have hl := TV.linspace (Traced.lit (0:ℝ)) ha 254
  have hint : TV s _ (fun θ i => FlatWcdm.integrand_oneOverEz (Jnp.linspace 0 (z θ) 254 i) (O θ) (v θ) (u θ)) θ := fun i =>
    (Traced.lit 1).div (traced_Ez (hl i) hb hc hd (Props.linspace_gt hz 254 i) hO) (Ez_pos (Props.linspace_gt hz 254 i) hO _ _).ne'
  exact (((hl.trapz hint).mul (Traced.lit FlatWcdm.C_SPEED)).mul (Traced.lit 1e-5)).div he hh

theorem traced_lumdist : Traced s (Gen.luminosity_distance_to_z a b c d e)
    (fun θ => FlatWcdm.luminosity_distance_to_z (z θ) (O θ) (v θ) (u θ) (h θ)) θ :=
  (traced_comoving ha hb hc hd he hz hO hh).mul ((Traced.lit 1).add ha)

theorem traced_angdist : Traced s (Gen.angular_diameter_distance_to_z a b c d e)
    (fun θ => FlatWcdm.angular_diameter_distance_to_z (z θ) (O θ) (v θ) (u θ) (h θ)) θ :=
  (traced_comoving ha hb hc hd he hz hO hh).div ((Traced.lit 1).add ha) (by show (1:ℝ) + z θ ≠ 0; linarith)

omit hz hh in
theorem traced_dmod (hz : 0 < z θ) (hh : 0 < h θ) : Traced s (Gen.distance_modulus_to_z a b c d e)
    (fun θ => FlatWcdm.distance_modulus_to_z (z θ) (O θ) (v θ) (u θ) (h θ)) θ := by
  have hz' : -1 < z θ := by linarith
  refine (Traced.lit 5.0).mul (((traced_lumdist ha hb hc hd he hz' hO hh.ne').mul (Traced.lit 1e5)).log10 ?_)
  exact mul_pos ((Props.lumdist_sign hz' hO _ _ hh).1 hz) (by norm_num)

theorem traced_hubble_time : Traced s (Gen.hubble_time a b c d e)
    (fun θ => FlatWcdm.hubble_time (z θ) (O θ) (v θ) (u θ) (h θ)) θ :=
  ((Traced.lit (1e-16 * FlatWcdm.MPC / FlatWcdm.YEAR)).div he hh).div (traced_Ez ha hb hc hd hz hO) (Ez_pos hz hO _ _).ne'

theorem traced_lookback : Traced s (Gen.lookback_to_z a b c d e)
    (fun θ => FlatWcdm.lookback_to_z (z θ) (O θ) (v θ) (u θ) (h θ)) θ := by
  have hl := TV.linspace (Traced.lit (0:ℝ)) ha 510
  have hint : TV s _ (fun θ i => 1 / FlatWcdm.Ez (Jnp.linspace 0 (z θ) 510 i) (O θ) (v θ) (u θ) / (1 + Jnp.linspace 0 (z θ) 510 i)) θ := fun i =>
    ((Traced.lit 1).div (traced_Ez (hl i) hb hc hd (Props.linspace_gt hz 510 i) hO) (Ez_pos (Props.linspace_gt hz 510 i) hO _ _).ne').div
      ((Traced.lit 1).add (hl i)) (by have := Props.linspace_gt hz 510 i; show (1:ℝ) + Jnp.linspace 0 (z θ) 510 i ≠ 0; linarith)
  exact (traced_hubble_time (Traced.lit (0.0:ℝ)) hb hc hd he (by norm_num) hO hh).mul (hl.trapz hint)

omit ha hz in
theorem traced_age0 : Traced s (Gen.age_at_z0 b c d e) (fun θ => FlatWcdm.age_at_z0 (O θ) (v θ) (u θ) (h θ)) θ := by
  have hz : ∀ i : Fin 512, -1 < Jnp.logspace 0 3 510 i - 1.0 := fun i => by
    have : 0 < Jnp.logspace 0 3 510 i := Real.rpow_pos_of_pos (by norm_num) _
    norm_num; linarith
  have hl : TV s (fun i => (Flt.lit (Jnp.logspace 0 3 510 i - 1.0) : Rv ι)) (fun _ i => Jnp.logspace 0 3 510 i - 1.0) θ := fun i => Traced.lit _
  have hint : TV s _ (fun θ i => 1 / FlatWcdm.Ez (Jnp.logspace 0 3 510 i - 1.0) (O θ) (v θ) (u θ) / (1 + (Jnp.logspace 0 3 510 i - 1.0))) θ := fun i =>
    ((Traced.lit 1).div (traced_Ez (hl i) hb hc hd (hz i) hO) (Ez_pos (hz i) hO _ _).ne').div
      ((Traced.lit 1).add (hl i)) (by have := hz i; show (1:ℝ) + (Jnp.logspace 0 3 510 i - 1.0) ≠ 0; linarith)
  exact (traced_hubble_time (Traced.lit (0.0:ℝ)) hb hc hd he (by norm_num) hO hh).mul (hl.trapz hint)

theorem traced_age : Traced s (Gen.age_at_z_kern a b c d e)
    (fun θ => FlatWcdm.age_at_z_kern (z θ) (O θ) (v θ) (u θ) (h θ)) θ :=
  (traced_age0 hb hc hd he hO hh).sub (traced_lookback ha hb hc hd he hz hO hh)

omit hh in
theorem traced_rho_crit : Traced s (Gen.rho_crit a b c d e)
    (fun θ => FlatWcdm.rho_crit (z θ) (O θ) (v θ) (u θ) (h θ)) θ :=
  (((Traced.lit _).mul he).mul he).mul ((traced_Ez ha hb hc hd hz hO).ipow 2)

omit hh he in
theorem traced_delta_vir : Traced s (Gen.delta_vir a b c d)
    (fun θ => FlatWcdm.delta_vir (fun _ : Fin 1 => z θ) (O θ) (v θ) (u θ) 0) θ := by
  have hE := traced_Ez ha hb hc hd hz hO
  have hE0 := (Ez_pos hz hO (v θ) (u θ)).ne'
  have hOm := ((hb.mul (((Traced.lit 1.0).add ha).ipow 3)).div hE hE0).div hE hE0
  have hx := hOm.sub (Traced.lit 1.0)
  exact ((Traced.lit (18 * Real.pi ^ 2)).add ((Traced.lit 82.0).mul hx)).sub ((Traced.lit 39.0).mul (hx.ipow 2))

theorem traced_virial : Traced s (Gen.virial_dynamical_time a b c d e)
    (fun θ => FlatWcdm.virial_dynamical_time (fun _ : Fin 1 => z θ) (O θ) (v θ) (u θ) (h θ) 0) θ := by
  have hD := traced_delta_vir ha hb hc hd hz hO
  have hpos := (Props.C53_delta_vir (fun _ : Fin 1 => z θ) 0 hz hO (v θ) (u θ)).2.2.1
  exact ((Traced.lit _).mul (traced_hubble_time ha hb hc hd he hz hO hh)).mul (hD.pow (Traced.lit (-0.5)) (lt_trans (by norm_num) hpos))

end cosmo

/-! ### photometry -/

/-- either the wavelengths do not depend on the parameters, or no filter wavelength is one of the spectrum -/
def OffGrid [Jnp.Dtype] (W : (ι → ℝ) → Fin (n + 2) → ℝ) (fw : (ι → ℝ) → Fin (m + 1) → ℝ) (θ : ι → ℝ) : Prop :=
  (Fixed W θ ∧ Fixed fw θ) ∨ (Jnp.Resolved (W θ) ∧ ∀ i j, fw θ i ≠ W θ j)

theorem traced_flux [Jnp.Dtype] {W L : (ι → ℝ) → Fin (n + 2) → ℝ} {fw ft : (ι → ℝ) → Fin (m + 1) → ℝ}
    {W' L' : Fin (n + 2) → Rv ι} {fw' ft' : Fin (m + 1) → Rv ι} (hW : TV s W' W θ) (hL : TV s L' L θ) (hfw : TV s fw' fw θ)
    (hft : TV s ft' ft θ) (h0 : ∀ i, fw θ i ≠ 0) :
    Traced (s ∧ OffGrid W fw θ) (Gen.rest_flux_ssp W' L' fw' ft')
      (fun θ => Photometry.rest_flux_ssp (W θ) (L θ) (fw θ) (ft θ)) θ := by
  have hI : ∀ i, Traced (s ∧ OffGrid W fw θ) (Gen.interpLR (fw' i) W' L' (Flt.lit 0) (Flt.lit 0))
      (fun θ => Jnp.interpLR (fw θ i) (W θ) (L θ) 0 0) θ := by
    intro i
    by_cases h : Fixed W θ ∧ Fixed fw θ
    · exact (traced_interpLR_fixed (hfw i) hW hL (Traced.lit 0) (Traced.lit 0) (h.2.mono fun y hy => congrFun hy i) h.1).weaken And.left
    · exact (traced_interpLR (hfw i) (fun hs => (hfw i).continuousAt hs) hW hL (Traced.lit 0) (Traced.lit 0)).weaken
        fun hs => ⟨hs.1, (hs.2.resolve_left h).1, Or.inr (Or.inr ⟨hs.1, (hs.2.resolve_left h).2 i⟩)⟩
  exact (hfw.weaken And.left).trapz fun i => (((hft i).weaken And.left).mul (hI i)).div ((hfw i).weaken And.left) (h0 i)

theorem traced_obs_flux [Jnp.Dtype] {W L : (ι → ℝ) → Fin (n + 2) → ℝ} {fw ft : (ι → ℝ) → Fin (m + 1) → ℝ} {z : (ι → ℝ) → ℝ}
    {W' L' : Fin (n + 2) → Rv ι} {fw' ft' : Fin (m + 1) → Rv ι} {a : Rv ι} (hW : TV s W' W θ) (hL : TV s L' L θ) (hfw : TV s fw' fw θ)
    (hft : TV s ft' ft θ) (ha : Traced s a z θ) (h0 : ∀ i, fw θ i ≠ 0) :
    Traced (s ∧ OffGrid (fun θ j => W θ j * (1 + z θ)) fw θ) (Gen.obs_flux_ssp W' L' fw' ft' a)
      (fun θ => Photometry.obs_flux_ssp (W θ) (L θ) (fw θ) (ft θ) (z θ)) θ :=
  traced_flux (W' := fun j => W' j * (Flt.lit 1 + a)) (fun j => (hW j).mul ((Traced.lit 1).add ha)) hL hfw hft h0

theorem traced_ab0 {fw ft : (ι → ℝ) → Fin (m + 1) → ℝ} {fw' ft' : Fin (m + 1) → Rv ι} (hfw : TV s fw' fw θ)
    (hft : TV s ft' ft θ) (h0 : ∀ i, fw θ i ≠ 0) :
    Traced s (Gen.flux_ab0_at_10pc fw' ft') (fun θ => Photometry.flux_ab0_at_10pc (fw θ) (ft θ)) θ :=
  hfw.trapz fun i => ((hft i).mul (Traced.lit _)).div (hfw i) (h0 i)

theorem traced_calc_rest_flux [Jnp.Dtype] {W L : (ι → ℝ) → Fin (n + 2) → ℝ} {fw ft : (ι → ℝ) → Fin (m + 1) → ℝ}
    {W' L' : Fin (n + 2) → Rv ι} {fw' ft' : Fin (m + 1) → Rv ι} (hW : TV s W' W θ) (hL : TV s L' L θ) (hfw : TV s fw' fw θ)
    (hft : TV s ft' ft θ) (h0 : ∀ i, fw θ i ≠ 0) (hA : Photometry.flux_ab0_at_10pc (fw θ) (ft θ) ≠ 0) :
    Traced (s ∧ OffGrid W fw θ) (Gen.calc_rest_flux W' L' fw' ft')
      (fun θ => Photometry.calc_rest_flux (W θ) (L θ) (fw θ) (ft θ)) θ :=
  (traced_flux hW hL hfw hft h0).div ((traced_ab0 hfw hft h0).weaken And.left) hA

theorem traced_calc_rest_mag [Jnp.Dtype] {W L : (ι → ℝ) → Fin (n + 2) → ℝ} {fw ft : (ι → ℝ) → Fin (m + 1) → ℝ}
    {W' L' : Fin (n + 2) → Rv ι} {fw' ft' : Fin (m + 1) → Rv ι} (hW : TV s W' W θ) (hL : TV s L' L θ) (hfw : TV s fw' fw θ)
    (hft : TV s ft' ft θ) (h0 : ∀ i, fw θ i ≠ 0) (hA : Photometry.flux_ab0_at_10pc (fw θ) (ft θ) ≠ 0)
    (hpos : 0 < Photometry.calc_rest_flux (W θ) (L θ) (fw θ) (ft θ)) :
    Traced (s ∧ OffGrid W fw θ) (Gen.calc_rest_mag W' L' fw' ft')
      (fun θ => Photometry.calc_rest_mag (W θ) (L θ) (fw θ) (ft θ)) θ :=
  (Traced.lit 2.5).neg.mul ((traced_calc_rest_flux hW hL hfw hft h0 hA).log10 hpos)

theorem traced_calc_obs_mag [Jnp.Dtype] {W L : (ι → ℝ) → Fin (n + 2) → ℝ} {fw ft : (ι → ℝ) → Fin (m + 1) → ℝ} {z O v u h : (ι → ℝ) → ℝ}
    {W' L' : Fin (n + 2) → Rv ι} {fw' ft' : Fin (m + 1) → Rv ι} {a b c d e : Rv ι} (hW : TV s W' W θ) (hL : TV s L' L θ) (hfw : TV s fw' fw θ)
    (hft : TV s ft' ft θ) (ha : Traced s a z θ) (hb : Traced s b O θ) (hc : Traced s c v θ) (hd : Traced s d u θ) (he : Traced s e h θ)
    (h0 : ∀ i, fw θ i ≠ 0) (hpos : 0 < Photometry.obs_flux_ssp (W θ) (L θ) (fw θ) (ft θ) (z θ) / Photometry.flux_ab0_at_10pc (fw θ) (ft θ))
    (hz : 0 < z θ) (hO : PhysicalOm (O θ)) (hh : 0 < h θ) :
    Traced (s ∧ OffGrid (fun θ j => W θ j * (1 + z θ)) fw θ) (Gen.calc_obs_mag W' L' fw' ft' a b c d e)
      (fun θ => Photometry.calc_obs_mag (W θ) (L θ) (fw θ) (ft θ) (z θ) (O θ) (v θ) (u θ) (h θ)) θ := by
  have hA : Photometry.flux_ab0_at_10pc (fw θ) (ft θ) ≠ 0 := fun h => by rw [h, div_zero] at hpos; exact lt_irrefl _ hpos
  have h2 := (traced_dmod ha hb hc hd he hO hz hh).sub ((Traced.lit 2.5).mul (((Traced.lit 1).add ha).log10 (by show (0:ℝ) < 1 + z θ; linarith)))
  exact (((Traced.lit 2.5).neg).mul (((traced_obs_flux hW hL hfw hft ha h0).div ((traced_ab0 hfw hft h0).weaken And.left) hA).log10 hpos)).add
    (h2.weaken And.left)

end Dsps.Lemmas
