import Verif.Model.JitHistory
import Verif.Props.Metallicity

/-! C111: `jit` and mutable module globals, over all call histories. -/
namespace Dsps.Props
open Jnp Dsps.Utils Dsps.Umzr Dsps.JitHistory

variable {Sig Sig' : Type} [DecidableEq Sig] [DecidableEq Sig']

/-- The specification: what the source text of the functions says when the dictionaries hold `MZR_PBDICT`, `MZR_T0_PBDICT`. -/
noncomputable def pureOut : Event Sig Sig' → Out
  | .setBound _ _ => .none
  | .setT0Bound _ _ => .none
  | .slopeHi _ lo u => .value (get_mzr_t0_slope_hi_from_unbounded lo u)
  | .bounded _ u => .params (get_bounded_mzr_params u)
  | .unbounded _ p => .uparams (get_unbounded_mzr_params p)
  | .ranT0 R key => .values (get_ran_t0_params R key)

/-- The program assigns to neither dictionary. -/
def NoAssignment (es : List (Event Sig Sig')) : Prop :=
  ∀ e ∈ es, (∀ k b, e ≠ .setBound k b) ∧ ∀ k b, e ≠ .setT0Bound k b

/-- everything recorded so far was recorded with the dictionary `D` -/
structure Recorded (D : Fin 9 → ℝ × ℝ) (s : State Sig Sig') : Prop where
  dict : s.pbdict = D
  bounded : ∀ sig c, s.bounded sig = some c → c = (D, (D 4).1)
  slopeHi : ∀ sig c, s.slopeHi sig = some c → c = (D 4).1
  unbounded : ∀ sig c, s.unbounded sig = some c → c = D

theorem recorded_imported (sig₀ : Sig) : Recorded MZR_PBDICT (imported sig₀ : State Sig Sig') := by
  refine ⟨rfl, fun _ _ h => by simp [imported] at h, fun _ _ h => by simp [imported] at h, fun sig c h => ?_⟩
  simp only [imported, Function.update_apply] at h
  split_ifs at h with hs
  · exact (Option.some.inj h).symm

theorem recorded_step {inner : Sig → Sig'} {D : Fin 9 → ℝ × ℝ} {s : State Sig Sig'} (h : Recorded D s) {e : Event Sig Sig'}
    (he : ∀ k b, e ≠ .setBound k b) : Recorded D (step inner s e).1 := by
  have hget : ∀ sig, (s.slopeHi sig).getD (s.pbdict 4).1 = (D 4).1 := by
    intro sig
    cases hs : s.slopeHi sig with
    | none => rw [h.dict]; rfl
    | some c => exact h.slopeHi sig c hs
  cases e with
  | setBound k b => exact absurd rfl (he k b)
  | setT0Bound k b => exact ⟨h.dict, h.bounded, h.slopeHi, h.unbounded⟩
  | ranT0 R key => exact h
  | slopeHi sig lo u =>
    refine ⟨h.dict, h.bounded, fun sig' c hc => ?_, h.unbounded⟩
    simp only [step, Function.update_apply] at hc
    split_ifs at hc
    · rw [← Option.some.inj hc]; exact hget sig
    · exact h.slopeHi _ _ hc
  | bounded sig u =>
    cases hs : s.bounded sig with
    | some c => simp only [step, hs]; exact h
    | none =>
      simp only [step, hs]
      refine ⟨h.dict, fun sig' c hc => ?_, fun sig' c hc => ?_, h.unbounded⟩
      · simp only [Function.update_apply] at hc
        split_ifs at hc
        · rw [← Option.some.inj hc, hget, h.dict]
        · exact h.bounded _ _ hc
      · simp only [Function.update_apply] at hc
        split_ifs at hc
        · rw [← Option.some.inj hc, hget]
        · exact h.slopeHi _ _ hc
  | unbounded sig p =>
    cases hs : s.unbounded sig with
    | some c => simp only [step, hs]; exact h
    | none =>
      simp only [step, hs]
      refine ⟨h.dict, h.bounded, h.slopeHi, fun sig' c hc => ?_⟩
      simp only [Function.update_apply] at hc
      split_ifs at hc
      · rw [← Option.some.inj hc, h.dict]
      · exact h.unbounded _ _ hc

theorem recorded_out {inner : Sig → Sig'} {s : State Sig Sig'} (h : Recorded MZR_PBDICT s) (ht : s.t0dict = MZR_T0_PBDICT)
    (e : Event Sig Sig') : (step inner s e).2 = pureOut e := by
  have hget : ∀ sig, (s.slopeHi sig).getD (s.pbdict 4).1 = (MZR_PBDICT 4).1 := by
    intro sig
    cases hs : s.slopeHi sig with
    | none => rw [h.dict]; rfl
    | some c => exact h.slopeHi sig c hs
  cases e with
  | setBound k b => rfl
  | setT0Bound k b => rfl
  | ranT0 R key => simp only [step, pureOut, ht]
  | slopeHi sig lo u => simp only [step, pureOut, hget]; rfl
  | bounded sig u =>
    cases hs : s.bounded sig with
    | some c => simp only [step, hs, pureOut, h.bounded sig c hs]; rfl
    | none =>
      simp only [step, hs, pureOut, hget]
      rw [h.dict]; rfl
  | unbounded sig p =>
    cases hs : s.unbounded sig with
    | some c => simp only [step, hs, pureOut, h.unbounded sig c hs]; rfl
    | none => simp only [step, hs, pureOut, h.dict]; rfl

/-- C111: a program that never assigns to the dictionaries cannot see `jit`: whatever is called, in whatever order and with whatever signatures,
every call returns what the source text says. -/
theorem C111_jit_transparent (inner : Sig → Sig') (sig₀ : Sig) (history : List (Event Sig Sig')) (h : NoAssignment history) :
    (run inner (imported sig₀) history).2 = history.map pureOut := by
  have key : ∀ (es : List (Event Sig Sig')) (s : State Sig Sig'), NoAssignment es → Recorded MZR_PBDICT s →
      s.t0dict = MZR_T0_PBDICT → (run inner s es).2 = es.map pureOut := by
    intro es
    induction es with
    | nil => intro s _ _ _; rfl
    | cons e es ih =>
      intro s hn hr ht
      have he := hn e List.mem_cons_self
      simp only [run, List.map_cons, recorded_out hr ht]
      congr 1
      refine ih _ (fun e' h' => hn e' (List.mem_cons_of_mem _ h')) (recorded_step hr he.1) ?_
      cases e with
      | setT0Bound k b => exact absurd rfl (he.2 k b)
      | bounded sig u => simp only [step]; split <;> exact ht
      | unbounded sig p => simp only [step]; split <;> exact ht
      | _ => exact ht
  exact key history _ h (recorded_imported sig₀) rfl

theorem run_append (inner : Sig → Sig') (s : State Sig Sig') (a b : List (Event Sig Sig')) :
    run inner s (a ++ b) = ((run inner (run inner s a).1 b).1, (run inner s a).2 ++ (run inner (run inner s a).1 b).2) := by
  induction a generalizing s with
  | nil => simp [run]
  | cons e es ih => simp only [List.cons_append, run, ih]

/-- recorded programs are never replaced -/
theorem bounded_kept (inner : Sig → Sig') (es : List (Event Sig Sig')) {s : State Sig Sig'} {sig : Sig} {c} (h : s.bounded sig = some c) :
    (run inner s es).1.bounded sig = some c := by
  induction es generalizing s with
  | nil => exact h
  | cons e es ih =>
    simp only [run]
    apply ih
    cases e with
    | bounded sig' u =>
      simp only [step]
      cases hs : s.bounded sig' with
      | some c' => exact h
      | none =>
        have : sig ≠ sig' := by rintro rfl; rw [h] at hs; cases hs
        simp only [Function.update_of_ne this]; exact h
    | unbounded sig' p => simp only [step]; split <;> exact h
    | _ => exact h

theorem unbounded_kept (inner : Sig → Sig') (es : List (Event Sig Sig')) {s : State Sig Sig'} {sig : Sig} {c} (h : s.unbounded sig = some c) :
    (run inner s es).1.unbounded sig = some c := by
  induction es generalizing s with
  | nil => exact h
  | cons e es ih =>
    simp only [run]
    apply ih
    cases e with
    | unbounded sig' u =>
      simp only [step]
      cases hs : s.unbounded sig' with
      | some c' => exact h
      | none =>
        have : sig ≠ sig' := by rintro rfl; rw [h] at hs; cases hs
        simp only [Function.update_of_ne this]; exact h
    | bounded sig' p => simp only [step]; split <;> exact h
    | _ => exact h

/-- C111: once a transformation has been called, later assignments to the dictionary (and anything else the program does) have no
effect on calls with the same signature: they return what they would have returned right after the first call. -/
theorem C111_assignment_ignored (inner : Sig → Sig') (sig₀ : Sig) (before between : List (Event Sig Sig')) (sig : Sig) :
    (∀ u u', (step inner (run inner (imported sig₀) (before ++ Event.bounded sig u :: between)).1 (.bounded sig u')).2 =
      (step inner (run inner (imported sig₀) (before ++ [Event.bounded sig u])).1 (.bounded sig u')).2) ∧
    (∀ p p', (step inner (run inner (imported sig₀) (before ++ Event.unbounded sig p :: between)).1 (.unbounded sig p')).2 =
      (step inner (run inner (imported sig₀) (before ++ [Event.unbounded sig p])).1 (.unbounded sig p')).2) := by
  constructor
  · intro u u'
    simp only [run_append, run]
    set s := (run inner (imported sig₀) before).1
    obtain ⟨c, hc⟩ : ∃ c, (step inner s (.bounded sig u)).1.bounded sig = some c := by
      simp only [step]
      cases hs : s.bounded sig with
      | some c => exact ⟨c, hs⟩
      | none => exact ⟨_, Function.update_self ..⟩
    have h2 := bounded_kept inner between hc
    simp only [step] at hc h2 ⊢
    simp only [hc, h2]
  · intro p p'
    simp only [run_append, run]
    set s := (run inner (imported sig₀) before).1
    obtain ⟨c, hc⟩ : ∃ c, (step inner s (.unbounded sig p)).1.unbounded sig = some c := by
      simp only [step]
      cases hs : s.unbounded sig with
      | some c => exact ⟨c, hs⟩
      | none => exact ⟨_, Function.update_self ..⟩
    have h2 := unbounded_kept inner between hc
    simp only [step] at hc h2 ⊢
    simp only [hc, h2]

/-- C111: calls with the signature of the shipped default parameters use the bounds the package was shipped with, whatever the program assigns:
that signature was already used by the import. -/
theorem C111_unbounded_fixed_at_import (inner : Sig → Sig') (sig₀ : Sig) (history : List (Event Sig Sig')) (p : MZRParams) :
    (step inner (run inner (imported sig₀) history).1 (.unbounded sig₀ p)).2 = .uparams (get_unbounded_mzr_params p) := by
  have h := unbounded_kept inner history (s := imported sig₀) (sig := sig₀) (c := MZR_PBDICT)
    (by simp [imported])
  simp only [step, h]; rfl

/-- C111: so a program that changes a bound after the import gets inconsistent transformations: here `get_bounded(get_unbounded(p))` of
the default parameters is not `p`, although `p` lies inside the new bounds. -/
theorem C111_roundtrip_broken (inner : Sig → Sig') (sig₀ : Sig) :
    ∃ q, (run inner (imported sig₀) [.setBound 0 (-1.375, 0.625), .unbounded sig₀ DEFAULT_MZR_PARAMS,
        .bounded sig₀ (get_unbounded_mzr_params DEFAULT_MZR_PARAMS)]).2 =
      [.none, .uparams (get_unbounded_mzr_params DEFAULT_MZR_PARAMS), .params q] ∧
      q.mzr_t0_ytp = 0.305 ∧ DEFAULT_MZR_PARAMS.mzr_t0_ytp = 0.05 := by
  have h1 : ((imported sig₀ : State Sig Sig')).unbounded sig₀ = some MZR_PBDICT := by simp [imported]
  refine ⟨traced_bounded (Function.update MZR_PBDICT 0 (-1.375, 0.625)) (Function.update MZR_PBDICT 0 (-1.375, 0.625) 4).1
    (get_unbounded_mzr_params DEFAULT_MZR_PARAMS), ?_, ?_, rfl⟩
  · simp only [run, step, h1]
    simp only [imported]
    rfl
  · have hd : get_square_bounded_param (get_square_unbounded_param 0.05 (-1.0, 0.25)) (-1.0, 0.25) = 0.05 :=
      congrArg MZRParams.mzr_t0_ytp C33_default
    show get_square_bounded_param (get_square_unbounded_param 0.05 (-1.0, 0.25)) (-1.375, 0.625) = 0.305
    unfold get_square_bounded_param at hd ⊢
    generalize get_square_unbounded_param 0.05 (-1.0, 0.25) = v at hd ⊢
    simp only [Utils.sigmoid] at hd ⊢
    have e : (0.5:ℝ) * (-1.375 + 0.625) = 0.5 * (-1.0 + 0.25) := by norm_num
    rw [e]
    linarith

/-- The parameters lie inside the given bounds and `slope_hi` between its lower bound and `slope_lo`. -/
def InsideBounds (D : Fin 9 → ℝ × ℝ) (p : MZRParams) : Prop :=
  (∀ i, i ≠ 4 → (D i).1 < p.toArray i ∧ p.toArray i < (D i).2) ∧ (D 4).1 < p.mzr_t0_slope_hi ∧ p.mzr_t0_slope_hi < p.mzr_t0_slope_lo

theorem traced_roundtrip {D : Fin 9 → ℝ × ℝ} {p : MZRParams} (h : InsideBounds D p) :
    traced_bounded D (D 4).1 (traced_unbounded D p) = p := by
  obtain ⟨h1, h4, h4'⟩ := h
  have key : ∀ i, i ≠ 4 → get_square_bounded_param (get_square_unbounded_param (p.toArray i) (D i)) (D i) = p.toArray i :=
    fun i hi => (C08_sigmoid_inverse_sigmoid _ _ _ _ _ (by norm_num [BOUNDING_K]) (Or.inl (h1 i hi))).2
  have k3 : get_square_bounded_param (get_square_unbounded_param p.mzr_t0_slope_lo (D 3)) (D 3) = p.mzr_t0_slope_lo := key 3 (by decide)
  ext
  · exact key 0 (by decide)
  · exact key 1 (by decide)
  · exact key 2 (by decide)
  · exact k3
  · refine Eq.trans ?_ (C08_sigmoid_inverse_sigmoid p.mzr_t0_slope_hi 0.0 BOUNDING_K (D 4).1 p.mzr_t0_slope_lo
      (by norm_num [BOUNDING_K]) (Or.inl ⟨h4, h4'⟩)).2
    show Utils.sigmoid _ _ _ _ (get_square_bounded_param (get_square_unbounded_param p.mzr_t0_slope_lo (D 3)) (D 3)) = _
    rw [k3]
    rfl
  · exact key 5 (by decide)
  · exact key 6 (by decide)
  · exact key 7 (by decide)
  · exact key 8 (by decide)

/-- The dictionary after a list of events. -/
noncomputable def dictAfter (D : Fin 9 → ℝ × ℝ) : List (Event Sig Sig') → Fin 9 → ℝ × ℝ
  | [] => D
  | .setBound k b :: es => dictAfter (Function.update D k b) es
  | _ :: es => dictAfter D es

/-- C111: consistent use.  If the program makes all its assignments before its first call, with signatures not used by the import, then the two
transformations are mutually inverse on every parameter vector inside the new bounds, whatever these are. -/
theorem C111_roundtrip_after_assignments (inner : Sig → Sig') {sig₀ sig₁ sig₂ : Sig} (h₁ : sig₁ ≠ sig₀)
    (assignments : List (Event Sig Sig')) (ha : ∀ e ∈ assignments, ∃ k b, e = .setBound k b) {p : MZRParams}
    (hp : InsideBounds (dictAfter MZR_PBDICT assignments) p) :
    ∃ u, (run inner (imported sig₀) (assignments ++ [.unbounded sig₁ p, .bounded sig₂ u])).2 =
      assignments.map (fun _ => Out.none) ++ [.uparams u, .params p] := by
  have key : ∀ (es : List (Event Sig Sig')) (s : State Sig Sig'), (∀ e ∈ es, ∃ k b, e = .setBound k b) →
      run inner s es = ({ s with pbdict := dictAfter s.pbdict es }, es.map fun _ => Out.none) := by
    intro es
    induction es with
    | nil => intro s _; rfl
    | cons e es ih =>
      intro s h
      obtain ⟨k, b, rfl⟩ := h e List.mem_cons_self
      simp only [run, step, ih _ fun e' h' => h e' (List.mem_cons_of_mem _ h'), dictAfter, List.map_cons]
  refine ⟨traced_unbounded (dictAfter MZR_PBDICT assignments) p, ?_⟩
  rw [run_append, key _ _ ha]
  have h3 : (imported sig₀ : State Sig Sig').unbounded sig₁ = none := by
    simp only [imported, Function.update_of_ne h₁]
  simp only [run, step, h3]
  simp only [imported, Option.getD_none]
  rw [traced_roundtrip hp]

/-- Non-vacuity: the defaults lie inside the bounds of `C111_roundtrip_broken`, so with a signature not used by the import the same program
behaves. -/
example : InsideBounds (dictAfter (Sig := ℕ) (Sig' := ℕ) MZR_PBDICT [.setBound 0 (-1.375, 0.625)]) DEFAULT_MZR_PARAMS := by
  refine ⟨fun i hi => ?_, ?_, ?_⟩
  · fin_cases i <;>
      simp [dictAfter, MZR_PBDICT, DEFAULT_MZR_PARAMS, MZRParams.toArray, Function.update] at hi ⊢ <;> norm_num
  · simp [dictAfter, MZR_PBDICT, DEFAULT_MZR_PARAMS, Function.update]; norm_num
  · norm_num [DEFAULT_MZR_PARAMS]

/-- Non-vacuity of `C111_jit_transparent`: a history with repeated and mixed calls. -/
example (u : MZRUParams) (p : MZRParams) :
    NoAssignment ([.bounded 0 u, .unbounded 1 p, .bounded 0 u, .slopeHi 2 0.4 1] : List (Event ℕ ℕ)) := by
  intro e he
  simp only [List.mem_cons, List.not_mem_nil, or_false] at he
  rcases he with rfl | rfl | rfl | rfl <;> exact ⟨fun _ _ => by simp, fun _ _ => by simp⟩

/-- `C111_jit_transparent` on a concrete history: a wrapped call, a differently shaped one and a repeat -/
example (u : MZRUParams) (p : MZRParams) :
    (run (id : ℕ → ℕ) (imported 0) [.bounded 0 u, .unbounded 1 p, .bounded 0 u]).2 =
      ([.bounded 0 u, .unbounded 1 p, .bounded 0 u] : List (Event ℕ ℕ)).map pureOut := by
  refine C111_jit_transparent _ _ _ fun e he => ?_
  simp only [List.mem_cons, List.not_mem_nil, or_false] at he
  rcases he with rfl | rfl | rfl <;> exact ⟨fun _ _ => by simp, fun _ _ => by simp⟩

/-- `C111_roundtrip_after_assignments` on the assignment of `C111_roundtrip_broken`, with a new call signature -/
example : ∃ u, (run (id : ℕ → ℕ) (imported 0) ([.setBound 0 (-1.375, 0.625)] ++ [.unbounded 1 DEFAULT_MZR_PARAMS, .bounded 2 u])).2 =
    [Out.none] ++ [.uparams u, .params DEFAULT_MZR_PARAMS] := by
  refine C111_roundtrip_after_assignments id (by norm_num) [.setBound 0 (-1.375, 0.625)] (by simp) ⟨fun i hi => ?_, ?_, ?_⟩
  · fin_cases i <;>
      simp [dictAfter, MZR_PBDICT, DEFAULT_MZR_PARAMS, MZRParams.toArray, Function.update] at hi ⊢ <;> norm_num
  · simp [dictAfter, MZR_PBDICT, DEFAULT_MZR_PARAMS, Function.update]; norm_num
  · norm_num [DEFAULT_MZR_PARAMS]

end Dsps.Props
