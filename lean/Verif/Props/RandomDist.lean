import Verif.Props.Utils
import Verif.Props.Loaders
import Verif.Props.RandomParams
import Verif.Cases
import Mathlib.MeasureTheory.Constructions.Pi
import Mathlib.MeasureTheory.Measure.Lebesgue.Basic
import Mathlib.MeasureTheory.Measure.WithDensity
import Mathlib.MeasureTheory.Constructions.BorelSpace.Order
import Mathlib.MeasureTheory.Integral.IntervalIntegral.Basic
import Mathlib.MeasureTheory.Function.SpecialFunctions.Basic
import Mathlib.MeasureTheory.Function.Floor

/-! C16: the distribution of power-law draws. -/
namespace Dsps.Props
open MeasureTheory Set Dsps.Utils

/-- the uniform distribution on `[0, 1)` -/
noncomputable def unif01 : Measure ℝ := volume.restrict (Ico 0 1)

instance unif01_prob : IsProbabilityMeasure unif01 := ⟨by simp [unif01]⟩

theorem rvs_cdf {a b g x : ℝ} (ha : 0 < a) (hab : a < b) (hg : g ≠ 0) (hx : 0 < x) :
    powerlaw_rvs (∫ u in a..x, powerlaw_pdf u a b g) a b g = x := by
  have hs := powerlaw_sign a b g ha hab hg
  have hne : b ^ g - a ^ g ≠ 0 := by intro h; rw [h] at hs; simp at hs
  rw [powerlaw_cdf a b g x ha hg hx]
  simp only [powerlaw_rvs]
  rw [mul_div_cancel₀ _ hne, add_sub_cancel, ← Real.rpow_mul hx.le, show g * (1.0 / g) = 1 by norm_num; field_simp, Real.rpow_one]

theorem cdf_mem {a b g x : ℝ} (ha : 0 < a) (hab : a < b) (hg : g ≠ 0) (hx : x ∈ Icc a b) :
    ∫ u in a..x, powerlaw_pdf u a b g ∈ Icc (0:ℝ) 1 := by
  have hb := ha.trans hab
  have hx0 : 0 < x := ha.trans_le hx.1
  rw [powerlaw_cdf a b g x ha hg hx0]
  rcases lt_or_gt_of_ne hg with h | h
  · have h1 := Real.rpow_lt_rpow_of_neg ha hab h
    have h2 := (Real.rpow_le_rpow_iff_of_neg hx0 ha h).2 hx.1
    have h3 := (Real.rpow_le_rpow_iff_of_neg hb hx0 h).2 hx.2
    constructor
    · exact div_nonneg_of_nonpos (by linarith) (by linarith)
    · rw [div_le_one_of_neg (by linarith)]; linarith
  · have h1 := Real.rpow_lt_rpow ha.le hab h
    have h2 := (Real.rpow_le_rpow_iff ha.le hx0.le h).2 hx.1
    have h3 := (Real.rpow_le_rpow_iff hx0.le hb.le h).2 hx.2
    constructor
    · exact div_nonneg (by linarith) (by linarith)
    · rw [div_le_one (by linarith)]; linarith

theorem rvs_le_iff {a b g r x : ℝ} (ha : 0 < a) (hab : a < b) (hg : g ≠ 0) (hr : r ∈ Ico (0:ℝ) 1) (hx : x ∈ Icc a b) :
    powerlaw_rvs r a b g ≤ x ↔ r ≤ ∫ u in a..x, powerlaw_pdf u a b g := by
  have hx0 : 0 < x := ha.trans_le hx.1
  have := (C16_powerlaw_rvs_strictMono a b g ha hab hg).le_iff_le ⟨hr.1, hr.2.le⟩ (cdf_mem ha hab hg hx)
  simp only [rvs_cdf ha hab hg hx0] at this
  exact this

theorem measurable_rvs (a b g : ℝ) : Measurable fun r => powerlaw_rvs r a b g := by
  unfold powerlaw_rvs; fun_prop

theorem continuousOn_pdf {a b g : ℝ} (ha : 0 < a) : ContinuousOn (fun u => powerlaw_pdf u a b g) (Icc a b) := by
  unfold powerlaw_pdf
  refine ContinuousOn.div_const (ContinuousOn.mul continuousOn_const ?_) _
  exact continuousOn_id.rpow_const fun x hx => .inl (ha.trans_le hx.1).ne'

/-- C16: **the distribution of the draws.**  For a uniform deviate on [0, 1) the value of `powerlaw_rvs` has the density
`powerlaw_pdf` on [a, b] (and no mass elsewhere). -/
theorem C16_distribution (a b g : ℝ) (ha : 0 < a) (hab : a < b) (hg : g ≠ 0) :
    unif01.map (fun r => powerlaw_rvs r a b g) =
      (volume.restrict (Icc a b)).withDensity fun x => ENNReal.ofReal (powerlaw_pdf x a b g) := by
  have hm := measurable_rvs a b g
  have : IsProbabilityMeasure (unif01.map fun r => powerlaw_rvs r a b g) := Measure.isProbabilityMeasure_map hm.aemeasurable
  -- the mass of the density below a point of [a, b]
  have key : ∀ x ∈ Icc a b, ∫⁻ u in Icc a x, ENNReal.ofReal (powerlaw_pdf u a b g) =
      ENNReal.ofReal (∫ u in a..x, powerlaw_pdf u a b g) := by
    intro x hx
    rw [intervalIntegral.integral_of_le hx.1, ← integral_Icc_eq_integral_Ioc, ofReal_integral_eq_lintegral_ofReal]
    · exact ((continuousOn_pdf ha).mono (Icc_subset_Icc_right hx.2)).integrableOn_Icc
    · refine (ae_restrict_iff' measurableSet_Icc).2 (Filter.Eventually.of_forall fun u hu => ?_)
      exact ((C15_powerlaw_pdf a b g ha hab hg).1 u (ha.trans_le hu.1)).le
  refine Measure.ext_of_Iic _ _ fun x => ?_
  rw [Measure.map_apply hm measurableSet_Iic, withDensity_apply _ measurableSet_Iic, unif01,
    Measure.restrict_apply (hm measurableSet_Iic), Measure.restrict_restrict measurableSet_Iic]
  rcases lt_or_ge x a with h | h
  · rw [show (fun r => powerlaw_rvs r a b g) ⁻¹' Iic x ∩ Ico 0 1 = ∅ from ?_, show Iic x ∩ Icc a b = ∅ from ?_]
    · simp
    · ext u; simp only [mem_inter_iff, mem_Iic, mem_Icc, mem_empty_iff_false, iff_false, not_and]; intro h1 h2; linarith
    · ext r
      simp only [mem_inter_iff, mem_preimage, mem_Iic, mem_empty_iff_false, iff_false, not_and]
      intro h1 h2
      have := (C16_powerlaw_rvs a b g r ha hab hg h2.1 h2.2.le).1
      linarith
  · rcases le_or_gt x b with h' | h'
    · have hx : x ∈ Icc a b := ⟨h, h'⟩
      have hF := cdf_mem ha hab hg hx
      rw [show Iic x ∩ Icc a b = Icc a x from ?_, key x hx]
      · have e : (fun r => powerlaw_rvs r a b g) ⁻¹' Iic x ∩ Ico 0 1 = Iic (∫ u in a..x, powerlaw_pdf u a b g) ∩ Ico 0 1 := by
          ext r
          simp only [mem_inter_iff, mem_preimage, mem_Iic]
          exact and_congr_left fun hr => rvs_le_iff ha hab hg hr hx
        rw [e]
        generalize (∫ u in a..x, powerlaw_pdf u a b g) = F at hF
        have h1 : volume (Iic F ∩ Ico 0 1) = volume (Icc (0:ℝ) F) := by
          rcases hF.2.eq_or_lt with h1 | h1
          · subst h1
            rw [show Iic (1:ℝ) ∩ Ico 0 1 = Ico 0 1 from ?_]
            · simp
            · ext r; simp only [mem_inter_iff, mem_Iic, mem_Ico]; constructor
              · exact fun h => h.2
              · exact fun h => ⟨h.2.le, h⟩
          · congr 1
            ext r; simp only [mem_inter_iff, mem_Iic, mem_Ico, mem_Icc]; constructor
            · exact fun h => ⟨h.2.1, h.1⟩
            · exact fun h => ⟨h.2, h.1, h.2.trans_lt h1⟩
        rw [h1]; simp
      · ext u; simp only [mem_inter_iff, mem_Iic, mem_Icc]; constructor
        · exact fun h => ⟨h.2.1, h.1⟩
        · exact fun h => ⟨h.2, h.1, h.2.trans h'⟩
    · rw [show Iic x ∩ Icc a b = Icc a b from ?_, key b ⟨hab.le, le_rfl⟩, (C15_powerlaw_pdf a b g ha hab hg).2.2,
        show (fun r => powerlaw_rvs r a b g) ⁻¹' Iic x ∩ Ico 0 1 = Ico 0 1 from ?_]
      · simp
      · ext r
        simp only [mem_inter_iff, mem_preimage, mem_Iic, and_iff_right_iff_imp]
        intro h2
        exact ((C16_powerlaw_rvs a b g r ha hab hg h2.1 h2.2.le).2.1).trans h'.le
      · ext u; simp only [mem_inter_iff, mem_Iic, mem_Icc]; constructor
        · exact fun h => h.2
        · exact fun h => ⟨h.2.trans h'.le, h⟩

/-- C16: **an array of draws.**  With independent uniform deviates the entries of the result are independent, entry `i` with the
density of its own parameters. -/
theorem C16_joint_distribution {n : ℕ} (a b g : Fin n → ℝ) (ha : ∀ i, 0 < a i) (hab : ∀ i, a i < b i) (hg : ∀ i, g i ≠ 0) :
    (Measure.pi fun _ : Fin n => unif01).map (fun r i => powerlaw_rvs (r i) (a i) (b i) (g i)) =
      Measure.pi fun i => (volume.restrict (Icc (a i) (b i))).withDensity fun x => ENNReal.ofReal (powerlaw_pdf x (a i) (b i) (g i)) := by
  have : ∀ i, IsProbabilityMeasure (unif01.map fun r => powerlaw_rvs r (a i) (b i) (g i)) :=
    fun i => Measure.isProbabilityMeasure_map (measurable_rvs _ _ _).aemeasurable
  rw [Measure.pi_map_pi (fun i => (measurable_rvs (a i) (b i) (g i)).aemeasurable)]
  congr 1
  funext i
  exact C16_distribution _ _ _ (ha i) (hab i) (hg i)

/-- a uniform deviate scaled to `[lo, hi)` is uniform there -/
theorem uniform_distribution {lo hi : ℝ} (h : lo < hi) :
    unif01.map (fun u => max lo (u * (hi - lo) + lo)) = (ENNReal.ofReal (hi - lo))⁻¹ • volume.restrict (Ico lo hi) := by
  have hd : 0 < hi - lo := by linarith
  have e : unif01.map (fun u => max lo (u * (hi - lo) + lo)) = unif01.map (fun u => u * (hi - lo) + lo) := by
    refine Measure.map_congr ?_
    unfold unif01
    refine (ae_restrict_iff' measurableSet_Ico).2 (Filter.Eventually.of_forall fun u hu => ?_)
    exact max_eq_right (by nlinarith [hu.1])
  rw [e]
  have hm : Measurable fun u : ℝ => u * (hi - lo) + lo := by fun_prop
  have : IsProbabilityMeasure (unif01.map fun u => u * (hi - lo) + lo) := Measure.isProbabilityMeasure_map hm.aemeasurable
  ext s hs
  rw [Measure.map_apply hm hs, unif01, Measure.restrict_apply (hm hs), Measure.smul_apply, Measure.restrict_apply hs, smul_eq_mul]
  have hpre : (fun u : ℝ => u * (hi - lo) + lo) ⁻¹' s ∩ Ico 0 1 = (fun u : ℝ => u * (hi - lo) + lo) ⁻¹' (s ∩ Ico lo hi) := by
    ext u
    simp only [mem_inter_iff, mem_preimage, mem_Ico]
    refine and_congr_right fun _ => ⟨fun h => ⟨by nlinarith, by nlinarith⟩, fun h => ⟨?_, ?_⟩⟩
    · by_contra hc; push Not at hc; nlinarith [h.1]
    · by_contra hc; push Not at hc; nlinarith [h.2]
  rw [hpre]
  have h2 : (fun u : ℝ => u * (hi - lo) + lo) ⁻¹' (s ∩ Ico lo hi) = (fun u => u * (hi - lo)) ⁻¹' ((fun v => v + lo) ⁻¹' (s ∩ Ico lo hi)) := rfl
  rw [h2, Real.volume_preimage_mul_right hd.ne', measure_preimage_add_right, abs_of_pos (inv_pos.2 hd), ENNReal.ofReal_inv_of_pos hd]

/-- C72: **the random centre.**  When no centre is given, the curve is the Gaussian filter around a centre that, for a uniform
deviate, is uniformly distributed on `[lo + 2 scale, hi - 2 scale)`. -/
theorem C72_centre_distribution {lo hi scale : ℝ} (hlh : lo < hi) (h : 4 * scale < hi - lo) :
    ∃ c : ℝ → ℝ, (∀ u, ∃ wave t, LoadFilterData.load_random_transmission_curve u none (lo, hi) scale = .ok (wave, t) ∧
        IsGaussianFilter lo hi (c u) scale wave t) ∧
      unif01.map c = (ENNReal.ofReal (hi - lo - 4 * scale))⁻¹ • volume.restrict (Ico (lo + 2 * scale) (hi - 2 * scale)) := by
  refine ⟨fun u => LoadFilterData.uniform u (lo + scale * 2) (hi - scale * 2), fun u => ⟨_, _, rfl, gaussian_curve hlh _ scale⟩, ?_⟩
  have := uniform_distribution (lo := lo + scale * 2) (hi := hi - scale * 2) (by linarith)
  rw [show hi - lo - 4 * scale = hi - scale * 2 - (lo + scale * 2) by ring, mul_comm 2]
  exact this

/-- case: the defaults of the code, range 1000-10000 and width 300 -/
example := C72_centre_distribution (lo := 1000) (hi := 10000) (scale := 300) (by norm_num) (by norm_num)

/-- C87: **the distribution of the parameters.**  If the generator is random (over any probability space) and the deviates of the keys
of its split chain are independent and uniform on [0, 1), then the parameters that are returned are independent, and each is
uniform in its own interval. -/
theorem C87_distribution {Ω Key : Type} [MeasurableSpace Ω] (μ : Measure Ω) (split : Key → Key × Key) (dev : Ω → Key → ℝ)
    (hdev : ∀ ω k, 0 ≤ dev ω k ∧ dev ω k < 1) (k : Key) {n : ℕ} (bs : Fin n → ℝ × ℝ) (hb : ∀ i, (bs i).1 < (bs i).2)
    (hm : ∀ key, Measurable fun ω => dev ω key)
    (hiid : μ.map (fun ω (i : Fin n) => dev ω (split ((fun q => (split q).1)^[i] k)).2) = Measure.pi fun _ => unif01) :
    μ.map (fun ω (i : Fin n) => (Umzr.get_ran_t0_params ⟨Key, split, dev ω, hdev ω⟩ k (List.ofFn bs)).getD i 0) =
      Measure.pi fun i => (ENNReal.ofReal ((bs i).2 - (bs i).1))⁻¹ • volume.restrict (Ico (bs i).1 (bs i).2) := by
  have hck : ∀ (ω : Ω) (i : ℕ), carriedKey ⟨Key, split, dev ω, hdev ω⟩ k i = (fun q => (split q).1)^[i] k := by
    intro ω i
    induction i with
    | zero => rfl
    | succ i ih => rw [Function.iterate_succ_apply', ← ih]; rfl
  have e : (fun ω (i : Fin n) => (Umzr.get_ran_t0_params ⟨Key, split, dev ω, hdev ω⟩ k (List.ofFn bs)).getD i 0) =
      (fun (r : Fin n → ℝ) i => max (bs i).1 (r i * ((bs i).2 - (bs i).1) + (bs i).1)) ∘
        fun ω (i : Fin n) => dev ω (split ((fun q => (split q).1)^[i] k)).2 := by
    funext ω i
    have e : Umzr.get_ran_t0_params ⟨Key, split, dev ω, hdev ω⟩ k (List.ofFn bs) = (List.ofFn bs).mapIdx fun i b =>
        (⟨Key, split, dev ω, hdev ω⟩ : Umzr.Jran).uniform (split (carriedKey ⟨Key, split, dev ω, hdev ω⟩ k i)).2 b.1 b.2 := by
      unfold Umzr.get_ran_t0_params; simp only; rw [ran_t0_loop_eq]; rfl
    simp only [e, Function.comp]
    rw [List.getD_eq_getElem?_getD, List.getElem?_eq_getElem (by simp), Option.getD_some]
    simp only [List.getElem_mapIdx, List.getElem_ofFn, hck, Umzr.Jran.uniform]
  have hm1 : Measurable fun ω (i : Fin n) => dev ω (split ((fun q => (split q).1)^[i] k)).2 := measurable_pi_iff.2 fun i => hm _
  have hm3 : ∀ i, Measurable fun u : ℝ => max (bs i).1 (u * ((bs i).2 - (bs i).1) + (bs i).1) := fun i => by fun_prop
  have hm2 : Measurable fun (r : Fin n → ℝ) i => max (bs i).1 (r i * ((bs i).2 - (bs i).1) + (bs i).1) := by fun_prop
  rw [e, ← Measure.map_map hm2 hm1, hiid]
  have : ∀ i, IsProbabilityMeasure (unif01.map fun u => max (bs i).1 (u * ((bs i).2 - (bs i).1) + (bs i).1)) :=
    fun i => Measure.isProbabilityMeasure_map (hm3 i).aemeasurable
  rw [Measure.pi_map_pi (fun i => (hm3 i).aemeasurable)]
  congr 1
  funext i
  exact uniform_distribution (hb i)

/-- case: a generator with the keys 0, 1, 2, … whose first five deviates are independent uniform numbers, and the bounds of the
code -/
example := C87_distribution (Ω := Fin 5 → ℝ) (Key := ℕ) (Measure.pi fun _ => unif01) (fun k => (k + 1, k))
  (fun ω k => if h : k < 5 then Int.fract (ω ⟨k, h⟩) else 0)
  (fun ω k => by split_ifs <;> simp [Int.fract_nonneg, Int.fract_lt_one]) 0
  (fun i => Umzr.MZR_T0_PBDICT.get i)
  (by intro i; fin_cases i <;> simp [Umzr.MZR_T0_PBDICT] <;> norm_num)
  (by intro k; split_ifs; exacts [(measurable_pi_apply _).fract, measurable_const])
  (by
    have hk : ∀ i : ℕ, (fun q : ℕ => q + 1)^[i] 0 = i := by
      intro i; induction i with
      | zero => rfl
      | succ i ih => rw [Function.iterate_succ_apply', ih]
    refine Eq.trans (b := Measure.map (fun (ω : Fin 5 → ℝ) (i : Fin 5) => Int.fract (ω i)) (Measure.pi fun _ => unif01))
      (congrArg (fun f => Measure.map f _) ?_) ?_
    · funext ω i; simp only [hk]; exact dif_pos i.2
    have hf : unif01.map (Int.fract : ℝ → ℝ) = unif01 := by
      conv_rhs => rw [← Measure.map_id (μ := unif01)]
      refine Measure.map_congr ?_
      unfold unif01
      exact (ae_restrict_iff' measurableSet_Ico).2 (Filter.Eventually.of_forall fun u hu => Int.fract_eq_self.2 hu)
    have : ∀ _ : Fin 5, IsProbabilityMeasure (unif01.map (Int.fract : ℝ → ℝ)) := fun _ => by rw [hf]; infer_instance
    rw [Measure.pi_map_pi (f := fun (_ : Fin 5) (u : ℝ) => Int.fract u) (fun _ => measurable_fract.aemeasurable)]
    simp only [hf]
    rfl)

/-- case: masses between 0.1 and 100 with the Salpeter-like slope -/
example := C16_distribution 0.1 100 (-1.35) (by norm_num) (by norm_num) (by norm_num)
example := C16_joint_distribution (n := 2) ![0.1, 1] ![100, 3] ![-1.35, 0.5] (by intro i; fin_cases i <;> norm_num)
  (by intro i; fin_cases i <;> norm_num) (by intro i; fin_cases i <;> norm_num)

end Dsps.Props
