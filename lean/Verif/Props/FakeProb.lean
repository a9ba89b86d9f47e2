import Verif.Props.FakeData
import Mathlib.Probability.Independence.InfinitePi
import Mathlib.Probability.ProbabilityMassFunction.Constructions
import Mathlib.Probability.Distributions.Uniform
import Mathlib.Analysis.SpecificLimits.Basic
import Verif.Cases

/-! C70: the loop of the fake line names under the probability model of `random.choices`. -/
namespace Dsps.Props
open Py Dsps.DataDefaults Dsps.Lemmas Dsps.RetrieveFake MeasureTheory ProbabilityTheory
open scoped ENNReal

/-- every set of strings is an event -/
local instance : MeasurableSpace Str := ⊤
local instance : DiscreteMeasurableSpace Str := ⟨fun _ => trivial⟩

/-- Independent uniformly distributed three-letter names: what the random generator is documented to supply. -/
structure UniformDraws {Ω : Type*} [MeasurableSpace Ω] (P : Measure Ω) (X : ℕ → Ω → Str) : Prop where
  meas : ∀ t, Measurable (X t)
  indep : iIndepFun X P
  isDraw : ∀ t ω, IsDraw (X t ω)
  uniform : ∀ t s, IsDraw s → P (X t ⁻¹' {s}) = (17576 : ℝ≥0∞)⁻¹

section
variable {Ω : Type*} [MeasurableSpace Ω] {P : Measure Ω} [IsProbabilityMeasure P] {X : ℕ → Ω → Str}

theorem prob_avoid (h : UniformDraws P X) {s : Str} (hs : IsDraw s) (t : ℕ) :
    P {ω | ∀ i < t, X i ω ≠ s} = (1 - (17576 : ℝ≥0∞)⁻¹) ^ t := by
  have e : {ω | ∀ i < t, X i ω ≠ s} = ⋂ i ∈ Finset.range t, X i ⁻¹' {s}ᶜ := by
    ext ω; simp
  rw [e, h.indep.measure_inter_preimage_eq_mul (Finset.range t) (sets := fun _ => {s}ᶜ) (fun _ _ => MeasurableSet.of_discrete)]
  rw [Finset.prod_congr rfl (g := fun _ => 1 - (17576 : ℝ≥0∞)⁻¹), Finset.prod_const, Finset.card_range]
  intro i _
  rw [Set.preimage_compl, prob_compl_eq_one_sub ((h.meas i) MeasurableSet.of_discrete), h.uniform i s hs]

/-- C70: for `n_line ≤ 17576` the probability that the loop is still running after `t` rounds decreases geometrically. -/
theorem C70_tail (h : UniformDraws P X) {n_line : ℕ} (hn : n_line ≤ 17576) (t : ℕ) :
    P {ω | ¬ loop_done (fun i => X i ω) n_line t} ≤ 17576 * (1 - (17576 : ℝ≥0∞)⁻¹) ^ t := by
  have hsub : {ω | ¬ loop_done (fun i => X i ω) n_line t} ⊆ ⋃ s ∈ threeLetters, {ω | ∀ i < t, X i ω ≠ s} := by
    intro ω hω
    by_contra hno
    simp only [Set.mem_iUnion, Set.mem_setOf_eq, exists_prop] at hno
    push Not at hno
    have hall : threeLetters ⊆ namesSoFar (fun i => X i ω) t := by
      intro s hs
      obtain ⟨i, hi, he⟩ := hno s hs
      unfold namesSoFar
      exact Finset.mem_insert_of_mem (Finset.mem_image.2 ⟨i, Finset.mem_range.2 hi, he⟩)
    have hrun : ∀ t' ≤ t, ¬ loop_done (fun i => X i ω) n_line t' := by
      intro t' ht' hd
      exact hω (Nat.le_induction hd (fun _ _ h => loop_done_stays h) t ht')
    have hc := Finset.card_le_card hall
    rw [card_threeLetters, ← loop_running _ n_line t fun t' ht' => hrun t' ht'.le] at hc
    exact hω (not_lt.2 (hn.trans hc))
  refine (measure_mono hsub).trans ((measure_biUnion_finset_le _ _).trans ?_)
  rw [Finset.sum_congr rfl fun s hs => prob_avoid h ((mem_threeLetters s).1 hs) t, Finset.sum_const, card_threeLetters]
  simp

/-- C70: for `n_line ≤ 17576` the loop ends almost surely. -/
theorem C70_terminates_almost_surely (h : UniformDraws P X) {n_line : ℕ} (hn : n_line ≤ 17576) :
    ∀ᵐ ω ∂P, ∃ t, loop_done (fun i => X i ω) n_line t := by
  rw [ae_iff]
  have hlt : (1 - (17576 : ℝ≥0∞)⁻¹) < 1 := ENNReal.sub_lt_self (by simp) (by simp) (by simp)
  have hlim : Filter.Tendsto (fun t : ℕ => 17576 * (1 - (17576 : ℝ≥0∞)⁻¹) ^ t) Filter.atTop (nhds (17576 * 0)) :=
    ENNReal.Tendsto.const_mul (ENNReal.tendsto_pow_atTop_nhds_zero_of_lt_one hlt) (Or.inr (by simp))
  rw [mul_zero] at hlim
  refine le_antisymm (ge_of_tendsto' hlim fun t => ?_) bot_le
  refine (measure_mono ?_).trans (C70_tail h hn t)
  intro ω hω hd
  exact hω ⟨t, hd⟩

/-- C70: and the call then returns `n_line` distinct valid names with increasing wavelengths, almost surely. -/
theorem C70_almost_surely [XID] (h : UniformDraws P X) {order : Finset Str → List Str}
    (ho : ∀ s, (order s).Nodup ∧ ∀ x, x ∈ order s ↔ x ∈ s) {n_line : ℕ} (h1 : 1 ≤ n_line) (hn : n_line ≤ 17576) :
    ∀ᵐ ω ∂P, ∃ t, loop_done (fun i => X i ω) n_line t ∧
      ∃ nt, emline_tuple order n_line (name_loop (fun i => X i ω) n_line t) = .ok nt ∧ nt.WF ∧ nt.fields.length = n_line ∧
        (∀ f ∈ nt.fields, IsDraw f) ∧ nt.values.SortedLT := by
  filter_upwards [C70_terminates_almost_surely h hn] with ω ⟨t, ht⟩
  obtain ⟨nt, a, b, c, d, e, -⟩ := C70_result ho (fun i => h.isDraw i ω) h1 ht
  exact ⟨t, ht, nt, a, b, c, d, e⟩

end

/-- Non-vacuity: such a random generator exists. -/
theorem case_uniform_draws : ∃ (Ω : Type) (_ : MeasurableSpace Ω) (P : Measure Ω) (_ : IsProbabilityMeasure P) (X : ℕ → Ω → Str), UniformDraws P X := by
  let D := {s : Str // s ∈ threeLetters}
  let _ : MeasurableSpace D := ⊤
  have hne : Nonempty D := ⟨⟨chars! "XXX", (mem_threeLetters _).2 (by unfold IsDraw; decide)⟩⟩
  let μ : Measure D := (PMF.uniformOfFintype D).toMeasure
  refine ⟨ℕ → D, inferInstance, Measure.infinitePi fun _ => μ, inferInstance, fun t ω => (ω t).1, ?_, ?_, ?_, ?_⟩
  · intro t; exact (measurable_of_finite _).comp (measurable_pi_apply t)
  · exact iIndepFun_infinitePi (P := fun _ : ℕ => μ) (X := fun _ => fun d : D => d.1) fun _ => measurable_of_finite _
  · intro t ω; exact (mem_threeLetters _).1 (ω t).2
  · intro t s hs
    have hm : MeasurePreserving (Function.eval t) (Measure.infinitePi fun _ : ℕ => μ) μ := measurePreserving_eval_infinitePi _ t
    have : (fun ω : ℕ → D => (ω t).1) ⁻¹' {s} = (Function.eval t : (ℕ → D) → D) ⁻¹' ({⟨s, (mem_threeLetters s).2 hs⟩} : Set D) := by
      ext ω
      simp only [Set.mem_preimage, Set.mem_singleton_iff, Function.eval]
      exact ⟨fun h => Subtype.ext h, fun h => congrArg Subtype.val h⟩
    rw [this, hm.measure_preimage (MeasurableSet.of_discrete).nullMeasurableSet]
    rw [PMF.toMeasure_apply_singleton _ _ MeasurableSet.of_discrete, PMF.uniformOfFintype_apply]
    have hc : Fintype.card D = 17576 := (Fintype.card_coe threeLetters).trans card_threeLetters
    rw [hc, Nat.cast_ofNat]

/-- C70 applied to that generator -/
example [XID] : ∃ (Ω : Type) (_ : MeasurableSpace Ω) (P : Measure Ω) (_ : IsProbabilityMeasure P) (X : ℕ → Ω → Str),
    (∀ᵐ ω ∂P, ∃ t, loop_done (fun i => X i ω) 166 t) ∧
    (∀ᵐ ω ∂P, ∃ t, loop_done (fun i => X i ω) 166 t ∧
      ∃ nt, emline_tuple Finset.toList 166 (name_loop (fun i => X i ω) 166 t) = .ok nt ∧ nt.fields.length = 166) := by
  obtain ⟨Ω, m, P, hP, X, h⟩ := case_uniform_draws
  refine ⟨Ω, m, P, hP, X, C70_terminates_almost_surely h (by norm_num), ?_⟩
  filter_upwards [C70_almost_surely h (order := Finset.toList) (fun s => ⟨s.nodup_toList, fun _ => Finset.mem_toList⟩)
    (n_line := 166) (by norm_num) (by norm_num)] with ω hω
  obtain ⟨t, ht, nt, h1, -, h2, -⟩ := hω
  exact ⟨t, ht, nt, h1, h2⟩

/-- `C70_tail` applied to that generator -/
example : ∃ (Ω : Type) (_ : MeasurableSpace Ω) (P : Measure Ω) (_ : IsProbabilityMeasure P) (X : ℕ → Ω → Str), 
    ∀ t, P {ω | ¬ loop_done (fun i => X i ω) 166 t} ≤ 17576 * (1 - (17576 : ENNReal)⁻¹) ^ t := by
  obtain ⟨Ω, m, P, hP, X, h⟩ := case_uniform_draws
  exact ⟨Ω, m, P, hP, X, fun t => C70_tail h (by norm_num) t⟩

end Dsps.Props
