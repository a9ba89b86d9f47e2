import Verif.Model.RetrieveFake
import Verif.Lemmas.PyLemmas
import Verif.Props.Loaders
import Verif.Props.SspWeights
import Mathlib.Tactic
import Mathlib.Analysis.Real.Pi.Bounds
import Verif.Cases

/-! C70, C75, C76: the fake data generators. -/
namespace Dsps.Props
open Py Dsps.DataDefaults Dsps.Lemmas Dsps.RetrieveFake

/-! ### C70 -/

/-- The strings of three capital letters. -/
def threeLetters : Finset Str :=
  (ascii_uppercase.toFinset ×ˢ ascii_uppercase.toFinset ×ˢ ascii_uppercase.toFinset).image fun p => [p.1, p.2.1, p.2.2]

theorem mem_threeLetters (s : Str) : s ∈ threeLetters ↔ IsDraw s := by
  unfold threeLetters IsDraw
  simp only [Finset.mem_image, Finset.mem_product, List.mem_toFinset, Prod.exists]
  constructor
  · rintro ⟨a, b, c, ⟨ha, hb, hc⟩, rfl⟩
    refine ⟨rfl, fun x hx => ?_⟩
    simp only [List.mem_cons, List.not_mem_nil, or_false] at hx
    rcases hx with rfl | rfl | rfl <;> assumption
  · rintro ⟨hl, h⟩
    match s, hl with
    | [a, b, c], _ => exact ⟨a, b, c, ⟨h a (by simp), h b (by simp), h c (by simp)⟩, rfl⟩

theorem card_threeLetters : threeLetters.card = 17576 := by
  unfold threeLetters
  rw [Finset.card_image_of_injective]
  · rw [Finset.card_product, Finset.card_product]
    have : ascii_uppercase.toFinset.card = 26 := by decide
    rw [this]
  · rintro ⟨a, b, c⟩ ⟨a', b', c'⟩ h
    simp only [List.cons.injEq, and_true] at h
    obtain ⟨rfl, rfl, rfl⟩ := h; rfl

/-- The different names produced so far: the initial one and the first `t` draws. -/
def namesSoFar (draws : ℕ → Str) (t : ℕ) : Finset Str := insert (chars! "XXX") ((Finset.range t).image draws)

theorem namesSoFar_mono (draws : ℕ → Str) : Monotone (namesSoFar draws) := fun _ _ h =>
  Finset.insert_subset_insert _ (Finset.image_subset_image (Finset.range_mono h))

theorem namesSoFar_succ (draws : ℕ → Str) (t : ℕ) : namesSoFar draws (t + 1) = insert (draws t) (namesSoFar draws t) := by
  unfold namesSoFar
  rw [Finset.range_add_one, Finset.image_insert, Finset.insert_comm]

theorem loop_subset (draws : ℕ → Str) (n t : ℕ) : name_loop draws n t ⊆ namesSoFar draws t := by
  induction t with
  | zero => simp [name_loop, namesSoFar]
  | succ t ih =>
    rw [name_loop, namesSoFar_succ]
    split_ifs
    · exact Finset.insert_subset_insert _ ih
    · exact ih.trans (Finset.subset_insert _ _)

/-- as long as the loop runs, the set is everything drawn so far -/
theorem loop_running (draws : ℕ → Str) (n t : ℕ) (h : ∀ t' < t, ¬ loop_done draws n t') :
    name_loop draws n t = namesSoFar draws t := by
  induction t with
  | zero => simp [name_loop, namesSoFar]
  | succ t ih =>
    rw [name_loop, namesSoFar_succ, ih fun t' ht => h t' (ht.trans (Nat.lt_succ_self t))]
    have := h t (Nat.lt_succ_self t)
    unfold loop_done at this
    rw [not_not, ih fun t' ht => h t' (ht.trans (Nat.lt_succ_self t))] at this
    rw [if_pos this]

theorem loop_done_stays {draws : ℕ → Str} {n t : ℕ} (h : loop_done draws n t) : loop_done draws n (t + 1) := by
  unfold loop_done at h ⊢
  rw [name_loop, if_neg h]; exact h

theorem loop_card_le (draws : ℕ → Str) {n : ℕ} (hn : 1 ≤ n) (t : ℕ) : (name_loop draws n t).card ≤ n := by
  induction t with
  | zero => simpa [name_loop] using hn
  | succ t ih =>
    rw [name_loop]
    split_ifs with h
    · exact (Finset.card_insert_le _ _).trans h
    · exact ih

/-- The `while` loop ends iff at some point enough different names have been drawn. -/
theorem C70_terminates_iff (draws : ℕ → Str) (n_line : ℕ) :
    (∃ t, loop_done draws n_line t) ↔ ∃ t, n_line ≤ (namesSoFar draws t).card := by
  constructor
  · rintro ⟨t, h⟩
    exact ⟨t, (not_lt.1 h).trans (Finset.card_le_card (loop_subset draws n_line t))⟩
  · rintro ⟨t, h⟩
    by_contra hno
    push Not at hno
    have := hno t
    unfold loop_done at this
    rw [not_not, loop_running draws n_line t fun t' _ => hno t'] at this
    omega

/-- **Negation of C70.**  For `n_line > 17576` the loop never ends, whatever is drawn: there are only 26³ three-letter names. -/
theorem C70_never_terminates {draws : ℕ → Str} (hd : ∀ t, IsDraw (draws t)) {n_line : ℕ} (hn : 17576 < n_line) (t : ℕ) :
    ¬ loop_done draws n_line t := by
  unfold loop_done
  rw [not_not]
  refine lt_of_le_of_lt (Finset.card_le_card (loop_subset draws n_line t)) (lt_of_le_of_lt ?_ hn)
  rw [← card_threeLetters]
  apply Finset.card_le_card
  unfold namesSoFar
  rw [Finset.insert_subset_iff]
  refine ⟨(mem_threeLetters _).2 (by unfold IsDraw; decide), ?_⟩
  intro s hs
  obtain ⟨i, -, rfl⟩ := Finset.mem_image.1 hs
  exact (mem_threeLetters _).2 (hd i)

/-- For `n_line ≤ 17576` the loop ends for every sequence of draws in which each three-letter name eventually occurs.  (Missing
from the full claim: sequences that avoid some name for ever, and `n_line > 17576`.) -/
theorem C70_terminates_partial {draws : ℕ → Str} (hall : ∀ s, IsDraw s → ∃ t, draws t = s) {n_line : ℕ}
    (hn : n_line ≤ 17576) : ∃ t, loop_done draws n_line t := by
  rw [C70_terminates_iff]
  -- a time by which all names have been drawn
  have : ∀ S : Finset Str, S ⊆ threeLetters → ∃ t, S ⊆ namesSoFar draws t := by
    intro S
    induction S using Finset.induction_on with
    | empty => intro _; exact ⟨0, by simp⟩
    | insert a S ha ih =>
      intro h
      rw [Finset.insert_subset_iff] at h
      obtain ⟨t₁, h1⟩ := ih h.2
      obtain ⟨t₂, h2⟩ := hall a ((mem_threeLetters a).1 h.1)
      refine ⟨max t₁ (t₂ + 1), Finset.insert_subset ?_ (h1.trans (namesSoFar_mono draws (le_max_left _ _)))⟩
      apply namesSoFar_mono draws (le_max_right t₁ (t₂ + 1))
      unfold namesSoFar
      exact Finset.mem_insert_of_mem (Finset.mem_image.2 ⟨t₂, by simp, h2⟩)
  obtain ⟨t, ht⟩ := this threeLetters subset_rfl
  refine ⟨t, hn.trans ?_⟩
  rw [← card_threeLetters]; exact Finset.card_le_card ht

/-- Constant draws never finish a request for three names: termination is not unconditional even for small `n_line`. -/
theorem C70_unlucky_draws : ∃ draws : ℕ → Str, (∀ t, IsDraw (draws t)) ∧ ∀ t, ¬ loop_done draws 3 t := by
  refine ⟨fun _ => chars! "AAA", fun _ => ⟨rfl, by show ∀ c ∈ chars! "AAA", _; decide⟩, fun t => ?_⟩
  unfold loop_done
  rw [not_not]
  refine lt_of_le_of_lt (Finset.card_le_card (loop_subset _ 3 t)) ?_
  have : namesSoFar (fun _ => chars! "AAA") t ⊆ {chars! "XXX", chars! "AAA"} := by
    unfold namesSoFar
    intro s hs
    rcases Finset.mem_insert.1 hs with rfl | hs
    · simp
    · obtain ⟨i, -, rfl⟩ := Finset.mem_image.1 hs; simp
  exact lt_of_le_of_lt (Finset.card_le_card this) (by decide)

/-- `C70_never_terminates` applied to a request for 20000 lines -/
example (t : ℕ) : ∃ draws : ℕ → Str, (∀ t, IsDraw (draws t)) ∧ ¬ loop_done draws 20000 t := by
  obtain ⟨d, h1, -⟩ := C70_unlucky_draws
  exact ⟨d, h1, C70_never_terminates h1 (by norm_num) t⟩

/-- There are sequences of draws in which each name occurs. -/
theorem exists_all_draws : ∃ draws : ℕ → Str, (∀ t, IsDraw (draws t)) ∧ ∀ s, IsDraw s → ∃ t, draws t = s := by
  refine ⟨fun t => threeLetters.toList.getD t (chars! "XXX"), ?_, ?_⟩
  · intro t
    simp only [List.getD_eq_getElem?_getD]
    rcases lt_or_ge t threeLetters.toList.length with h | h
    · rw [List.getElem?_eq_getElem h]
      exact (mem_threeLetters _).1 (Finset.mem_toList.1 (List.getElem_mem h))
    · rw [List.getElem?_eq_none h]; unfold IsDraw; decide
  · intro s hs
    have : s ∈ threeLetters.toList := Finset.mem_toList.2 ((mem_threeLetters s).2 hs)
    obtain ⟨t, ht, h⟩ := List.mem_iff_getElem.1 this
    refine ⟨t, ?_⟩
    simp only [List.getD_eq_getElem?_getD, List.getElem?_eq_getElem ht]; exact h

theorem draw_fieldName [XID] {s : Str} (h : IsDraw s) : isFieldName s = true := by
  have h2 : ∀ a ∈ ascii_uppercase, ∀ b ∈ ascii_uppercase, ∀ c ∈ ascii_uppercase, isFieldName [a, b, c] = true := by
    have hu : ∀ a ∈ ascii_uppercase, isAscii a = true ∧ isAlpha a = true ∧ a ≠ '_' ∧ ¬ a.toNat = 'a'.toNat ∧ ¬ a.toNat = 'd'.toNat ∧
        ¬ a.toNat = 'f'.toNat ∧ ¬ a.toNat = 'n'.toNat ∧ ¬ a.toNat = 't'.toNat := by decide
    intro a ha b hb c hc
    obtain ⟨a1, a2, a3, a4, a5, a6, a7, a8⟩ := hu a ha
    obtain ⟨b1, b2, -⟩ := hu b hb
    obtain ⟨c1, c2, -⟩ := hu c hc
    have hid : isIdentifier [a, b, c] = true := by
      simp [isIdentifier, idStart, idCont, a1, a2, b1, b2, c1, c2]
    have hk : keywords.contains [a, b, c] = false := by
      have e1 : a ≠ 'a' := fun h => a4 (by rw [h])
      have e2 : a ≠ 'd' := fun h => a5 (by rw [h])
      have e3 : a ≠ 'f' := fun h => a6 (by rw [h])
      have e4 : a ≠ 'n' := fun h => a7 (by rw [h])
      have e5 : a ≠ 't' := fun h => a8 (by rw [h])
      rw [List.contains_eq_mem]
      simp [keywords, e1, e2, e3, e4, e5]
    unfold isFieldName
    rw [hid, hk]
    simp [a3]
  obtain ⟨hl, hc⟩ := h
  match s, hl with
  | [a, b, c], _ => exact h2 a (hc a (by simp)) b (hc b (by simp)) c (hc c (by simp))

theorem logspace36_length (n : ℕ) : (logspace36 n).length = n := by unfold logspace36; simp

/-- When the loop has ended the call succeeds: exactly `n_line` distinct valid names, paired with `n_line` strictly increasing
wavelengths. -/
theorem C70_result [XID] {order : Finset Str → List Str} (ho : ∀ s, (order s).Nodup ∧ ∀ x, x ∈ order s ↔ x ∈ s)
    {draws : ℕ → Str} (hd : ∀ t, IsDraw (draws t)) {n_line : ℕ} (hn : 1 ≤ n_line) {t : ℕ} (h : loop_done draws n_line t) :
    ∃ nt, emline_tuple order n_line (name_loop draws n_line t) = .ok nt ∧ nt.WF ∧ nt.fields.length = n_line ∧
      (∀ f ∈ nt.fields, IsDraw f) ∧ nt.values.SortedLT ∧ ∀ w ∈ nt.values, 1000 ≤ w ∧ w ≤ 1000000 := by
  set s := name_loop draws n_line t with hs
  have hcard : s.card = n_line := le_antisymm (loop_card_le draws hn t) (not_lt.1 h)
  have hdraw : ∀ x ∈ order s, IsDraw x := by
    intro x hx
    have := loop_subset draws n_line t (((ho s).2 x).1 hx)
    rcases Finset.mem_insert.1 this with rfl | h'
    · unfold IsDraw; decide
    · obtain ⟨i, -, rfl⟩ := Finset.mem_image.1 h'; exact hd i
  have hlen : (order s).length = n_line := by
    have e : (order s).toFinset = s := by ext x; rw [List.mem_toFinset, (ho s).2]
    rw [← List.toFinset_card_of_nodup (ho s).1, e, hcard]
  have hv : ((order s).all isFieldName && decide (order s).Nodup) = true := by
    simp only [(ho s).1, decide_true, Bool.and_true, List.all_eq_true]
    exact fun x hx => draw_fieldName (hdraw x hx)
  refine ⟨⟨order s, logspace36 n_line⟩, ?_, ⟨fun f hf => draw_fieldName (hdraw f hf), (ho s).1, ?_⟩, hlen, hdraw, ?_, ?_⟩
  · unfold emline_tuple
    simp only [namedtupleType, hv, if_true, bind, Except.bind, construct, logspace36_length, hlen]
  · simp only [logspace36_length, hlen]
  · unfold logspace36
    rw [List.sortedLT_iff_pairwise, List.pairwise_map]
    have hr : (List.range n_line).Pairwise (· < ·) := List.pairwise_lt_range
    refine (List.pairwise_iff_getElem.2 ?_)
    intro i j hi hj hij
    simp only [List.getElem_range]
    simp only [List.length_range] at hi hj
    have hpos : (0:ℝ) < (n_line : ℝ) - 1 := by
      have : (2:ℝ) ≤ n_line := by exact_mod_cast (by omega : 2 ≤ n_line)
      linarith
    unfold Jnp.exp10
    apply Real.rpow_lt_rpow_of_exponent_lt (by norm_num)
    have hij' : (i : ℝ) < j := by exact_mod_cast hij
    have : 0 < (6 - 3 : ℝ) / ((n_line : ℝ) - 1) := by positivity
    nlinarith
  · intro w hw
    unfold logspace36 at hw
    obtain ⟨i, hi, rfl⟩ := List.mem_map.1 hw
    rw [List.mem_range] at hi
    have hle : (0:ℝ) ≤ i * ((6 - 3) / ((n_line : ℝ) - 1)) ∧ i * ((6 - 3) / ((n_line : ℝ) - 1)) ≤ 3 := by
      have hi' : (i : ℝ) ≤ (n_line : ℝ) - 1 := by
        have : (i : ℝ) + 1 ≤ n_line := by exact_mod_cast hi
        linarith
      have hi0 : (0:ℝ) ≤ i := by positivity
      rcases (le_trans hi0 hi').eq_or_lt with h0 | h0
      · rw [← h0]; simp
      · refine ⟨by positivity, ?_⟩
        rw [mul_div_assoc', div_le_iff₀ h0]; nlinarith
    unfold Jnp.exp10
    constructor
    · calc (1000:ℝ) = 10 ^ (3:ℝ) := by norm_num
        _ ≤ _ := Real.rpow_le_rpow_of_exponent_le (by norm_num) (by linarith)
    · calc _ ≤ (10:ℝ) ^ (6:ℝ) := Real.rpow_le_rpow_of_exponent_le (by norm_num) (by linarith)
        _ = 1000000 := by norm_num

/-- `C70_result` applied to a generator that eventually draws every name, for the default `n_line = 166` -/
example [XID] : ∃ draws : ℕ → Str, ∃ t, ∃ nt, emline_tuple Finset.toList 166 (name_loop draws 166 t) = .ok nt ∧ nt.fields.length = 166 := by
  obtain ⟨d, h1, h2⟩ := exists_all_draws
  obtain ⟨t, ht⟩ := C70_terminates_partial h2 (n_line := 166) (by norm_num)
  obtain ⟨nt, h, -, hl, -⟩ := C70_result (order := Finset.toList) (fun s => ⟨s.nodup_toList, fun _ => Finset.mem_toList⟩) h1 (by norm_num) ht
  exact ⟨d, t, nt, h, hl⟩

/-- The hypotheses of `C70_result` can be met for the default `n_line = 166`. -/
example : ∃ draws : ℕ → Str, (∀ t, IsDraw (draws t)) ∧ ∃ t, loop_done draws 166 t := by
  obtain ⟨d, h1, h2⟩ := exists_all_draws
  exact ⟨d, h1, C70_terminates_partial h2 (by norm_num)⟩
example : ∀ s : Finset Str, s.toList.Nodup ∧ ∀ x, x ∈ s.toList ↔ x ∈ s := fun s => ⟨s.nodup_toList, fun _ => Finset.mem_toList⟩

/-! ### C75 -/

theorem normPdf_le {s x c : ℝ} (hs : 0 < s) : LoadFilterData.normPdf x c s ≤ LoadFilterData.normPdf c c s := by
  unfold LoadFilterData.normPdf
  apply Real.exp_le_exp.2
  have : 0 ≤ (x - c) ^ 2 / s ^ 2 := by positivity
  simp only [sub_self]
  norm_num
  linarith

theorem normPdf_lt {s x c : ℝ} (hs : 0 < s) (hx : x ≠ c) : LoadFilterData.normPdf x c s < LoadFilterData.normPdf c c s := by
  unfold LoadFilterData.normPdf
  apply Real.exp_lt_exp.2
  have hx' : x - c ≠ 0 := sub_ne_zero.2 hx
  have : 0 < (x - c) ^ 2 / s ^ 2 := by positivity
  simp only [sub_self]
  norm_num
  linarith

/-- the textbook peak of the normal density -/
theorem normPdf_peak {s : ℝ} (hs : 0 < s) (c : ℝ) : LoadFilterData.normPdf c c s = 1 / (s * Real.sqrt (2 * Real.pi)) := by
  unfold LoadFilterData.normPdf
  have hp := Real.pi_pos
  simp only [sub_self]
  have e : ((-(0 ^ 2 / s ^ 2) - Real.log (2 * Real.pi * s ^ 2)) / 2 : ℝ) = - Real.log (s * Real.sqrt (2 * Real.pi)) := by
    rw [Real.log_mul (by positivity) (by positivity), Real.log_mul hs.ne' (by positivity), Real.log_sqrt (by positivity),
      Real.log_pow]
    push_cast; ring
  rw [e, Real.exp_neg, Real.exp_log (by positivity), one_div]

theorem normPdf_peak_lt {s : ℝ} (hs : 0 < s) (c : ℝ) : LoadFilterData.normPdf c c s < 1 / (s * 2.5) := by
  rw [normPdf_peak hs]
  apply one_div_lt_one_div_of_lt (by positivity)
  apply mul_lt_mul_of_pos_left _ hs
  apply Real.lt_sqrt_of_sq_lt
  have := Real.pi_gt_d2
  norm_num at this ⊢; linarith

/-- Specification: a bell-shaped transmission in log wavelength with its single maximum at `c`, positive, and below `top < 1`. -/
structure IsBell (f : ℝ → ℝ) (c top : ℝ) : Prop where
  pos : ∀ x, 0 < f x
  peak : ∀ x, x ≠ c → f x < f c
  bound : ∀ x, f x < top
  rises : StrictMonoOn f (Set.Iic c)
  falls : StrictAntiOn f (Set.Ici c)

theorem normPdf_sq {s x y c : ℝ} (hs : 0 < s) (h : |y - c| < |x - c|) :
    LoadFilterData.normPdf x c s < LoadFilterData.normPdf y c s := by
  have := sq_lt_sq.mpr h
  have h2 : (y - c) ^ 2 / s ^ 2 < (x - c) ^ 2 / s ^ 2 := div_lt_div_of_pos_right this (by positivity)
  unfold LoadFilterData.normPdf
  apply Real.exp_lt_exp.2
  linarith

theorem bell_of {s k c top : ℝ} (hs : 0 < s) (hk : 0 < k) (ht : 1 / (s * 2.5) / k ≤ top) :
    IsBell (fun x => LoadFilterData.normPdf x c s / k) c top := by
  refine ⟨fun x => div_pos (Real.exp_pos _) hk, fun x hx => div_lt_div_of_pos_right (normPdf_lt hs hx) hk, fun x => ?_, ?_, ?_⟩
  · exact lt_of_lt_of_le (div_lt_div_of_pos_right ((normPdf_le hs).trans_lt (normPdf_peak_lt hs c)) hk) ht
  · intro x hx y hy h
    have hx' : x ≤ c := hx
    have hy' : y ≤ c := hy
    refine div_lt_div_of_pos_right (normPdf_sq hs ?_) hk
    rw [abs_of_nonpos (by linarith), abs_of_nonpos (by linarith)]; linarith
  · intro x hx y hy h
    have hx' : c ≤ x := hx
    have hy' : c ≤ y := hy
    refine div_lt_div_of_pos_right (normPdf_sq hs ?_) hk
    rw [abs_of_nonneg (by linarith), abs_of_nonneg (by linarith)]; linarith

/-- The peaks of the six bands, in log10 Angstrom. -/
noncomputable def lsstPeaks : Fin 6 → ℝ := ![3.57, 3.68, 3.79, 3.875, 3.935, 3.985]

/-- The six fake LSST bands are valid transmissions: positive, below 0.54, with one peak each; the bands are ordered in
wavelength. -/
theorem C75_bands (b : Fin 6) : IsBell (func_list b) (lsstPeaks b) 0.54 := by
  fin_cases b
  · exact bell_of (by norm_num) (by norm_num) (by norm_num)
  · exact bell_of (by norm_num) (by norm_num) (by norm_num)
  · exact bell_of (by norm_num) (by norm_num) (by norm_num)
  · exact bell_of (by norm_num) (by norm_num) (by norm_num)
  · exact bell_of (by norm_num) (by norm_num) (by norm_num)
  · exact bell_of (by norm_num) (by norm_num) (by norm_num)

/-- The widths of the six bands, in dex of wavelength, and the factors their normal densities are divided by. -/
noncomputable def lsstWidths : Fin 6 → ℝ := ![0.022, 0.04, 0.03, 0.025, 0.017, 0.017]
/-- see `lsstWidths` -/
noncomputable def lsstNorms : Fin 6 → ℝ := ![80, 20, 25, 30, 47, 85]

theorem normPdf_gauss {s : ℝ} (hs : 0 < s) (x c : ℝ) :
    LoadFilterData.normPdf x c s = 1 / (s * Real.sqrt (2 * Real.pi)) * Real.exp (-((x - c) ^ 2 / (2 * s ^ 2))) := by
  rw [← normPdf_peak hs c]
  unfold LoadFilterData.normPdf
  rw [← Real.exp_add]
  congr 1
  field_simp
  ring

/-- C75: the six bands are the Gaussians (in log10 wavelength) of their documented centre, width and height. -/
theorem C75_bands_gaussian (b : Fin 6) (x : ℝ) :
    func_list b x = Real.exp (-((x - lsstPeaks b) ^ 2 / (2 * lsstWidths b ^ 2))) /
      (lsstNorms b * lsstWidths b * Real.sqrt (2 * Real.pi)) := by
  have key : ∀ {s : ℝ} (c k : ℝ), 0 < s → LoadFilterData.normPdf x c s / k =
      Real.exp (-((x - c) ^ 2 / (2 * s ^ 2))) / (k * s * Real.sqrt (2 * Real.pi)) := by
    intro s c k hs
    rw [normPdf_gauss hs]
    rw [one_div_mul_eq_div, div_div]
    congr 1
    ring
  fin_cases b
  · exact key 3.57 80 (s := 0.022) (by norm_num)
  · exact key 3.68 20 (s := 0.04) (by norm_num)
  · exact key 3.79 25 (s := 0.03) (by norm_num)
  · exact key 3.875 30 (s := 0.025) (by norm_num)
  · exact key 3.935 47 (s := 0.017) (by norm_num)
  · exact key 3.985 85 (s := 0.017) (by norm_num)

theorem C75_bands_ordered : StrictMono lsstPeaks := by
  rw [Fin.strictMono_iff_lt_succ]; intro i; fin_cases i <;> simp [lsstPeaks] <;> norm_num

/-- `load_fake_filter_transmission_curves` returns a strictly increasing wavelength grid from 100 to 20000 and six curves with
values in (0,1). -/
theorem C75_fake_curves :
    let r := load_fake_filter_transmission_curves
    StrictMono r.1 ∧ r.1 0 = 100 ∧ r.1 (Fin.last 1962) = 20000 ∧ (∀ i, 0 < r.1 i) ∧
      (∀ b i, r.2 b i = func_list b (Real.logb 10 (r.1 i))) ∧ ∀ b i, 0 < r.2 b i ∧ r.2 b i < 1 := by
  intro r
  have hm : StrictMono r.1 := linspace_strictMono (by norm_num) 1961
  have h0 : r.1 0 = 100 := (linspace_ends 100 20000 1961).1
  have hb : ∀ b i, r.2 b i = func_list b (Real.logb 10 (r.1 i)) := by intro b i; fin_cases b <;> rfl
  refine ⟨hm, h0, (linspace_ends 100 20000 1961).2, fun i => ?_, hb, fun b i => ?_⟩
  · have := hm.monotone (Fin.zero_le i); rw [h0] at this; linarith
  · rw [hb]
    exact ⟨(C75_bands b).pos _, ((C75_bands b).bound _).trans (by norm_num)⟩

/-- The per-band grids `_get_filter_waves` / `_get_filter_trans`: increasing wavelengths spanning the band limits, values in (0,1). -/
theorem C75_filter_grids (b : Fin 6) :
    StrictMono (get_filter_waves b) ∧ get_filter_waves b 0 = (![3200, 3200, 3200, 4084, 4084, 4085] : Fin 6 → ℝ) b ∧
      get_filter_waves b (Fin.last 1905) = (![9084, 9085, 9086, 10987, 10988, 10989] : Fin 6 → ℝ) b ∧
      (∀ i, 0 < get_filter_waves b i) ∧ ∀ i, 0 < get_filter_trans b i ∧ get_filter_trans b i < 1 := by
  have hlt : wave_mins b < wave_maxs b ∧ 0 < wave_mins b := by
    fin_cases b <;> simp [wave_mins, wave_maxs] <;> norm_num
  have hm : StrictMono (get_filter_waves b) := linspace_strictMono hlt.1 1904
  have h0 : get_filter_waves b 0 = wave_mins b := (linspace_ends _ _ 1904).1
  have h1 : get_filter_waves b (Fin.last 1905) = wave_maxs b := (linspace_ends _ _ 1904).2
  refine ⟨hm, by rw [h0]; rfl, by rw [h1]; rfl, fun i => ?_, fun i => ?_⟩
  · have := hm.monotone (Fin.zero_le i); rw [h0] at this; linarith [hlt.2]
  · exact ⟨(C75_bands b).pos _, ((C75_bands b).bound _).trans (by norm_num)⟩

theorem pow10_pow (a k : ℕ) (hk : k ≠ 0) : ((10:ℝ) ^ ((a:ℝ) / k)) ^ k = 10 ^ a := by
  rw [← Real.rpow_natCast ((10:ℝ) ^ _), ← Real.rpow_mul (by norm_num), div_mul_cancel₀ _ (by exact_mod_cast hk), Real.rpow_natCast]

theorem lt_pow10 {x q : ℝ} (a k : ℕ) (hk : k ≠ 0) (hq : (a:ℝ) / k ≤ q) (h : x ^ k < 10 ^ a) : x < (10:ℝ) ^ q := by
  refine lt_of_lt_of_le (lt_of_pow_lt_pow_left₀ k (by positivity) ?_) (Real.rpow_le_rpow_of_exponent_le (by norm_num) hq)
  rw [pow10_pow a k hk]; exact h

theorem pow10_lt {x q : ℝ} (a k : ℕ) (hk : k ≠ 0) (hx : 0 ≤ x) (hq : q ≤ (a:ℝ) / k) (h : 10 ^ a < x ^ k) : (10:ℝ) ^ q < x := by
  refine lt_of_le_of_lt (Real.rpow_le_rpow_of_exponent_le (by norm_num) hq) (lt_of_pow_lt_pow_left₀ k hx ?_)
  rw [pow10_pow a k hk]; exact h

/-- The nominal peak of every fake filter lies strictly inside its wavelength grid. -/
theorem C75_peak_inside (b : Fin 6) : wave_mins b < (10:ℝ) ^ lsstPeaks b ∧ (10:ℝ) ^ lsstPeaks b < wave_maxs b := by
  fin_cases b
  · exact ⟨lt_pow10 71 20 (by norm_num) (by norm_num [lsstPeaks]) (by norm_num [wave_mins]),
      pow10_lt 79 20 (by norm_num) (by norm_num [wave_maxs]) (by norm_num [lsstPeaks]) (by norm_num [wave_maxs])⟩
  · exact ⟨lt_pow10 71 20 (by norm_num) (by norm_num [lsstPeaks]) (by norm_num [wave_mins]),
      pow10_lt 79 20 (by norm_num) (by norm_num [wave_maxs]) (by norm_num [lsstPeaks]) (by norm_num [wave_maxs])⟩
  · exact ⟨lt_pow10 71 20 (by norm_num) (by norm_num [lsstPeaks]) (by norm_num [wave_mins]),
      pow10_lt 79 20 (by norm_num) (by norm_num [wave_maxs]) (by norm_num [lsstPeaks]) (by norm_num [wave_maxs])⟩
  · exact ⟨lt_pow10 73 20 (by norm_num) (by norm_num [lsstPeaks]) (by norm_num [wave_mins]),
      pow10_lt 4 1 (by norm_num) (by norm_num [wave_maxs]) (by norm_num [lsstPeaks]) (by norm_num [wave_maxs])⟩
  · exact ⟨lt_pow10 73 20 (by norm_num) (by norm_num [lsstPeaks]) (by norm_num [wave_mins]),
      pow10_lt 4 1 (by norm_num) (by norm_num [wave_maxs]) (by norm_num [lsstPeaks]) (by norm_num [wave_maxs])⟩
  · exact ⟨lt_pow10 73 20 (by norm_num) (by norm_num [lsstPeaks]) (by norm_num [wave_mins]),
      pow10_lt 4 1 (by norm_num) (by norm_num [wave_maxs]) (by norm_num [lsstPeaks]) (by norm_num [wave_maxs])⟩

/-- On its own grid every fake filter rises strictly up to its nominal peak wavelength (`10^3.57 ≈ 3715` Å for u, …) and falls
strictly beyond it (by `C75_peak_inside` both parts are there). -/
theorem C75_filter_unimodal (b : Fin 6) (i j : Fin 1906) (hij : i < j) :
    (get_filter_waves b j ≤ (10:ℝ) ^ lsstPeaks b → get_filter_trans b i < get_filter_trans b j) ∧
    ((10:ℝ) ^ lsstPeaks b ≤ get_filter_waves b i → get_filter_trans b j < get_filter_trans b i) := by
  obtain ⟨hm, _, _, hp, _⟩ := C75_filter_grids b
  have ten : (1:ℝ) < 10 := by norm_num
  have hlt := Real.logb_lt_logb ten (hp i) (hm hij)
  constructor
  · intro h
    have hj : Real.logb 10 (get_filter_waves b j) ≤ lsstPeaks b := (Real.logb_le_iff_le_rpow ten (hp j)).mpr h
    exact (C75_bands b).rises (Set.mem_Iic.mpr (hlt.le.trans hj)) (Set.mem_Iic.mpr hj) hlt
  · intro h
    have hi : lsstPeaks b ≤ Real.logb 10 (get_filter_waves b i) := (Real.le_logb_iff_rpow_le ten (hp i)).mpr h
    exact (C75_bands b).falls (Set.mem_Ici.mpr hi) (Set.mem_Ici.mpr (hi.trans hlt.le)) hlt

/-- `C75_filter_unimodal` applied to the first two grid points of each band -/
example (b : Fin 6) := C75_filter_unimodal b 0 1 (by decide)

/-! ### C76 -/

theorem logb_diff {a b : ℝ} (ha : 0 < a) (hb : 0 < b) : Real.logb 10 b - Real.logb 10 a = Real.logb 10 (b / a) :=
  (Real.logb_div hb.ne' ha.ne').symm

theorem zlegend_pos (i : Fin 22) : 0 < zlegend i := by fin_cases i <;> simp [zlegend] <;> norm_num

theorem zlegend_ratio (j : Fin 20) : zlegend j.succ.succ * zlegend j.castSucc.castSucc ^ 3 <
    zlegend j.castSucc.succ ^ 3 * zlegend j.succ.castSucc := by
  fin_cases j <;> simp [zlegend] <;> norm_num

theorem zlegend_strictMono : StrictMono zlegend := by
  rw [Fin.strictMono_iff_lt_succ]; intro i; fin_cases i <;> simp [zlegend] <;> norm_num

theorem lgz_strictMono : StrictMono get_lgzlegend := fun i j h =>
  Real.logb_lt_logb (by norm_num) (zlegend_pos i) (zlegend_strictMono h)

/-- The metallicity grid of the fake data is strictly increasing, inside (-10, 10), and mildly spaced – the condition under which
the metallicity weights are proved to be probabilities. -/
theorem C76_lgmet_grid : Spec.MildlySpaced get_lgzlegend ∧ -10 < get_lgzlegend 0 ∧ get_lgzlegend (Fin.last 21) < 10 := by
  refine ⟨⟨lgz_strictMono, ?_, ?_⟩, ?_, ?_⟩
  · intro j
    unfold get_lgzlegend Jnp.log10
    rw [logb_diff (zlegend_pos _) (zlegend_pos _), logb_diff (zlegend_pos _) (zlegend_pos _)]
    have h3 : 3 * Real.logb 10 (zlegend j.castSucc.succ / zlegend j.castSucc.castSucc) =
        Real.logb 10 ((zlegend j.castSucc.succ / zlegend j.castSucc.castSucc) ^ 3) := by
      rw [Real.logb_pow]; norm_num
    rw [h3]
    apply Real.logb_lt_logb (by norm_num) (div_pos (zlegend_pos _) (zlegend_pos _))
    rw [div_pow, div_lt_div_iff₀ (zlegend_pos _) (pow_pos (zlegend_pos _) 3)]
    exact zlegend_ratio j
  · unfold get_lgzlegend Jnp.log10
    rw [logb_diff (zlegend_pos _) (zlegend_pos _), logb_diff (zlegend_pos _) (zlegend_pos _)]
    have h5 : 5 * Real.logb 10 (zlegend (Fin.last 21) / zlegend (Fin.last 20).castSucc) =
        Real.logb 10 ((zlegend (Fin.last 21) / zlegend (Fin.last 20).castSucc) ^ 5) := by
      rw [Real.logb_pow]; norm_num
    rw [h5]
    apply Real.logb_lt_logb (by norm_num) (div_pos (zlegend_pos _) (zlegend_pos _))
    have e1 : zlegend (Fin.last 20).castSucc = 0.024 := by rfl
    have e2 : zlegend (Fin.last 21) = 0.03 := by rfl
    have e3 : zlegend (Fin.last 19).castSucc.castSucc = 0.019 := by rfl
    rw [e1, e2, e3]; norm_num
  · unfold get_lgzlegend Jnp.log10
    have e : zlegend 0 = 0.0002 := rfl
    rw [e, Real.lt_logb_iff_rpow_lt (by norm_num) (by norm_num)]
    have : (10:ℝ) ^ (-10:ℝ) = (10 ^ 10)⁻¹ := by
      rw [Real.rpow_neg (by norm_num)]; norm_num
    rw [this]; norm_num
  · unfold get_lgzlegend Jnp.log10
    have e : zlegend (Fin.last 21) = 0.03 := rfl
    rw [e, Real.logb_lt_iff_lt_rpow (by norm_num) (by norm_num)]
    norm_num

/-- The age grid is uniform in log age with step 0.05 from -3.5 to 1.15. -/
theorem C76_age_grid : Spec.MildlySpaced get_log_age_gyr ∧ get_log_age_gyr 0 = -3.5 ∧ get_log_age_gyr (Fin.last 93) = 1.15 ∧
    (∀ i : Fin 93, get_log_age_gyr i.succ - get_log_age_gyr i.castSucc = 0.05) ∧ ∀ i, get_log_age_gyr i < 1.2 := by
  refine ⟨mildlySpaced_uniform (n := 91) (-3.5) 0.05 (by norm_num), ?_, ?_, ?_, ?_⟩
  · unfold get_log_age_gyr; norm_num
  · unfold get_log_age_gyr; norm_num
  · intro i; unfold get_log_age_gyr; simp only [Fin.val_succ, Fin.val_castSucc]; push_cast; ring
  · intro i
    unfold get_log_age_gyr
    have : ((i : ℕ) : ℝ) ≤ 93 := by exact_mod_cast Nat.lt_succ_iff.1 i.isLt
    norm_num; linarith

/-- The spectra are positive power laws for every table of coefficients, on a strictly increasing wavelength grid. -/
theorem C76_spectra {n_met n_age : ℕ} (c0 c1 : Fin n_met → Fin n_age → ℝ) :
    StrictMono get_ssp_wave ∧ get_ssp_wave 0 = 100 ∧ get_ssp_wave (Fin.last 1962) = 20000 ∧
    (∀ iz ia i, 0 < get_spec_ssp c0 c1 iz ia i) ∧
    ∀ iz ia i, get_spec_ssp c0 c1 iz ia i = (10:ℝ) ^ c0 iz ia * get_ssp_wave i ^ c1 iz ia := by
  have hm : StrictMono get_ssp_wave := linspace_strictMono (by norm_num) 1961
  have h0 : get_ssp_wave 0 = 100 := (linspace_ends 100 20000 1961).1
  refine ⟨hm, h0, (linspace_ends 100 20000 1961).2, fun iz ia i => Real.rpow_pos_of_pos (by norm_num) _, ?_⟩
  intro iz ia i
  have hp : 0 < get_ssp_wave i := by
    have := hm.monotone (Fin.zero_le i); rw [h0] at this; linarith
  unfold get_spec_ssp Jnp.exp10 Jnp.log10
  rw [Real.rpow_add (by norm_num), mul_comm (c1 iz ia), Real.rpow_mul (by norm_num),
    Real.rpow_logb (by norm_num) (by norm_num) hp]

/-- One row of fake line luminosities: `n_line` positive values, all below `10^3 L_sun`, exactly a fifth (rounded down) of them
below `10^-2 L_sun`. -/
theorem C76_emline_luminosity (n_line : ℕ) {lowDraws highDraws : ℕ → ℝ} (hl : ∀ i, -70 ≤ lowDraws i ∧ lowDraws i < -2)
    (hh : ∀ i, -2 ≤ highDraws i ∧ highDraws i < 3) {shuffle : List ℝ → List ℝ} (hs : ∀ l, (shuffle l).Perm l) :
    let row := emline_luminosity_row n_line lowDraws highDraws shuffle
    row.length = n_line ∧ (∀ x ∈ row, 0 < x ∧ x < 1000 * 3.828e33) ∧
      open Classical in row.countP (fun x => x < 0.01 * 3.828e33) = n_line / 5 := by
  intro row
  have hle : n_line / 5 ≤ n_line := Nat.div_le_self _ _
  have hperm : row.Perm (((List.range (n_line / 5)).map fun (i : ℕ) => Jnp.exp10 (lowDraws i) * 3.828e33) ++
      ((List.range (n_line - n_line / 5)).map fun (i : ℕ) => Jnp.exp10 (highDraws i) * 3.828e33)) := by
    have := (hs (((List.range (n_line / 5)).map fun (i : ℕ) => Jnp.exp10 (lowDraws i)) ++
      ((List.range (n_line - n_line / 5)).map fun (i : ℕ) => Jnp.exp10 (highDraws i)))).map fun x => x * 3.828e33
    rw [List.map_append, List.map_map, List.map_map] at this
    exact this
  have e10 : ∀ x : ℝ, 0 < Jnp.exp10 x := fun x => Real.rpow_pos_of_pos (by norm_num) _
  have elow : ∀ i, Jnp.exp10 (lowDraws i) < 0.01 := by
    intro i
    calc (10:ℝ) ^ lowDraws i < 10 ^ (-2:ℝ) := Real.rpow_lt_rpow_of_exponent_lt (by norm_num) (hl i).2
      _ = 0.01 := by rw [Real.rpow_neg (by norm_num)]; norm_num
  have ehigh : ∀ i, 0.01 ≤ Jnp.exp10 (highDraws i) ∧ Jnp.exp10 (highDraws i) < 1000 := by
    intro i
    constructor
    · calc (0.01:ℝ) = 10 ^ (-2:ℝ) := by rw [Real.rpow_neg (by norm_num)]; norm_num
        _ ≤ (10:ℝ) ^ highDraws i := Real.rpow_le_rpow_of_exponent_le (by norm_num) (hh i).1
    · calc (10:ℝ) ^ highDraws i < 10 ^ (3:ℝ) := Real.rpow_lt_rpow_of_exponent_lt (by norm_num) (hh i).2
        _ = 1000 := by norm_num
  refine ⟨?_, ?_, ?_⟩
  · rw [hperm.length_eq]; simp; omega
  · intro x hx
    rw [hperm.mem_iff, List.mem_append, List.mem_map, List.mem_map] at hx
    rcases hx with ⟨i, -, rfl⟩ | ⟨i, -, rfl⟩
    · have h1 := e10 (lowDraws i); have h2 := elow i
      norm_num at h2 ⊢
      exact ⟨h1, by nlinarith⟩
    · have h1 := e10 (highDraws i); have h2 := (ehigh i).2
      norm_num at h2 ⊢
      exact ⟨h1, by nlinarith⟩
  · classical
    rw [hperm.countP_eq, List.countP_append, List.countP_map, List.countP_map]
    have h1 : (List.range (n_line / 5)).countP ((fun x : ℝ => decide (x < 0.01 * 3.828e33)) ∘ fun (i : ℕ) => Jnp.exp10 (lowDraws i) * 3.828e33)
        = n_line / 5 := by
      rw [List.countP_eq_length.2, List.length_range]
      intro i _
      have := elow i
      simp only [Function.comp_apply, decide_eq_true_eq]
      exact mul_lt_mul_of_pos_right this (by norm_num)
    have h2 : (List.range (n_line - n_line / 5)).countP ((fun x : ℝ => decide (x < 0.01 * 3.828e33)) ∘ fun (i : ℕ) => Jnp.exp10 (highDraws i) * 3.828e33)
        = 0 := by
      rw [List.countP_eq_zero]
      intro i _
      have := (ehigh i).1
      simp only [Function.comp_apply, decide_eq_true_eq, not_lt]
      exact mul_le_mul_of_nonneg_right this (by norm_num)
    convert congrArg₂ (· + ·) h1 h2 using 2
    rfl

/-- `C76_emline_luminosity` applied to constant draws and a reversing shuffle -/
example := C76_emline_luminosity 166 (lowDraws := fun _ => -10) (highDraws := fun _ => 1) (fun _ => by norm_num) (fun _ => by norm_num)
  (shuffle := List.reverse) (fun l => l.reverse_perm)

/-- On the fake data the metallicity weights are a probability vector for every galaxy metallicity and positive scatter. -/
theorem C76_lgmet_weights_prob (gal_lgmet scatter : ℝ) (hs : 0 < scatter) :
    Spec.IsProbVector (MetallicityWeights.calc_lgmet_weights_from_lognormal_mdf (k := 19) gal_lgmet scatter get_lgzlegend) :=
  C21_lgmet_weights_prob_mild_partial gal_lgmet scatter hs get_lgzlegend C76_lgmet_grid.1 C76_lgmet_grid.2.1 C76_lgmet_grid.2.2

/-- `C76_lgmet_weights_prob` applied to solar metallicity -/
example := C76_lgmet_weights_prob (-1.85) 0.2 (by norm_num)

/-- The draws required by `C76_emline_luminosity` exist. -/
example : (∀ _i : ℕ, (-70:ℝ) ≤ -10 ∧ (-10:ℝ) < -2) ∧ (∀ _i : ℕ, (-2:ℝ) ≤ 1 ∧ (1:ℝ) < 3) ∧ ∀ l : List ℝ, (l.reverse).Perm l :=
  ⟨fun _ => by norm_num, fun _ => by norm_num, fun l => l.reverse_perm⟩

end Dsps.Props
