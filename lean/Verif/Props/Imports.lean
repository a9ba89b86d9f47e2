import Verif.Lemmas.Imports

/-! C110: what importing dsps does to the process, whatever is imported, in whatever order and however often, and whatever the
user does to the JAX precision flag in between. -/
namespace Dsps.Props
open Dsps.Imports Dsps.Lemmas.Imp

/-- The module lies in the package `dsps.dust` (or is it). -/
def InDust (m : Module) : Prop := m = .dust ∨ .dust ∈ packages m

/-- Invariant of every process: either no dsps module is loaded, or all of `import dsps` is, nothing is half executed,
nothing was executed twice, and the computed constants are those of the loaded modules, in order. -/
def ImpInv (s : State) : Prop :=
  s = fresh s.x64 ∨ (Good s ∧ s.started.Nodup ∧ s.consts.map Prod.fst = s.started.filterMap constOf)

theorem impInv_import {s : State} (h : ImpInv s) (m : Module) : ∃ s', importModule m s = some s' ∧ ImpInv s' ∧
    m ∈ s'.finished ∧ s.started <+: s'.started ∧ s.consts <+: s'.consts := by
  have later : ∀ s : State, Good s → s.started.Nodup → s.consts.map Prod.fst = s.started.filterMap constOf →
      ∃ s', importModule m s = some s' ∧ ImpInv s' ∧ m ∈ s'.finished ∧ s.started <+: s'.started ∧ s.consts <+: s'.consts := by
    intro s hg hn hc
    obtain ⟨s', h1, h2, h3⟩ := import_ext s hg m
    refine ⟨s', h1, Or.inr ⟨hg.ext h2, ?_, ?_⟩, ((hg.ext h2).fin m).1 h3, ⟨_, h2.started.symm⟩, ⟨_, h2.consts.symm⟩⟩
    · rw [h2.started, List.nodup_append']
      exact ⟨hn, newly_nodup s m, fun q hq hq' => newly_not_mem hq' hq⟩
    · rw [h2.consts, h2.started, List.map_append, List.filterMap_append, hc]
      congr 1
      rw [List.map_filterMap]
      congr 1
      funext q
      cases constOf q <;> rfl
  rcases h with h | ⟨hg, hn, hc⟩
  · obtain ⟨s0, h0, hg0, hx, hc0, hs0⟩ := import_dsps_good s.x64
    obtain ⟨s', h1, h2, h3, -, -⟩ := later s0 hg0 (by rw [hs0]; decide) (by rw [hs0, hc0]; rfl)
    refine ⟨s', ?_, h2, h3, ?_, ?_⟩
    · rw [h, import_first, h0]; exact h1
    · rw [h]; exact List.nil_prefix
    · rw [h]; exact List.nil_prefix
  · exact later s hg hn hc

theorem impInv_run {s : State} (h : ImpInv s) (es : List Event) : ∃ s', run es s = some s' ∧ ImpInv s' ∧
    s.started <+: s'.started ∧ s.consts <+: s'.consts := by
  induction es generalizing s with
  | nil => exact ⟨s, rfl, h, List.prefix_rfl, List.prefix_rfl⟩
  | cons e es ih =>
    cases e with
    | imp m =>
      obtain ⟨s1, h1, h2, -, h4, h5⟩ := impInv_import h m
      obtain ⟨s', h6, h7, h8, h9⟩ := ih h2
      exact ⟨s', by rw [run, step, h1]; exact h6, h7, h4.trans h8, h5.trans h9⟩
    | setX64 b =>
      have h2 : ImpInv { s with x64 := b } := by
        rcases h with h | ⟨hg, hn, hc⟩
        · left; rw [h]; rfl
        · exact Or.inr ⟨⟨hg.base, hg.fin, hg.dust, hg.dust', hg.mzr, hg.umzr⟩, hn, hc⟩
      obtain ⟨s', h6, h7, h8, h9⟩ := ih h2
      exact ⟨s', h6, h7, h8, h9⟩

theorem impInv_fresh (b : Bool) : ImpInv (fresh b) := Or.inl rfl

/-- C110: no history of imports ever raises an ImportError: no module is ever imported from while it is half executed, however
the program mixes imports of any modules in any order with changes of the precision flag. -/
theorem C110_no_import_error (b : Bool) (history : List Event) : ∃ s, run history (fresh b) = some s :=
  (impInv_run (impInv_fresh b) history).imp fun _ h => h.1

/-- C110: every module body runs at most once per process and to its end, and every constant is computed at most once. -/
theorem C110_executed_once {b : Bool} {history : List Event} {s : State} (h : run history (fresh b) = some s) :
    s.started.Nodup ∧ (∀ m, m ∈ s.started ↔ m ∈ s.finished) ∧ (s.consts.map Prod.fst).Nodup := by
  obtain ⟨s', h1, h2, -⟩ := impInv_run (impInv_fresh b) history
  rw [h] at h1; obtain rfl := Option.some.inj h1
  rcases h2 with h2 | ⟨hg, hn, hc⟩
  · rw [h2]; exact ⟨List.nodup_nil, fun m => Iff.rfl, List.nodup_nil⟩
  · refine ⟨hn, hg.fin, ?_⟩
    rw [hc]
    refine List.Nodup.filterMap ?_ hn
    intro a a' c ha ha'
    cases a <;> cases a' <;> first
      | rfl
      | (simp [constOf] at ha ha'; done)
      | (simp [constOf] at ha ha'; rw [← ha] at ha'; cases ha')

/-- C110: the constants, and the precision they were computed in, never change afterwards: a later history only appends. -/
theorem C110_constants_fixed {b : Bool} {history later : List Event} {s s' : State} (h : run history (fresh b) = some s)
    (h' : run later s = some s') : s.consts <+: s'.consts ∧ s.started <+: s'.started := by
  obtain ⟨s1, h1, h2, -⟩ := impInv_run (impInv_fresh b) history
  rw [h] at h1; obtain rfl := Option.some.inj h1
  obtain ⟨s2, h3, -, h4, h5⟩ := impInv_run h2 later
  rw [h'] at h3; obtain rfl := Option.some.inj h3
  exact ⟨h5, h4⟩

/-- C110: whatever the user set before, and whichever dsps module is imported first, that import succeeds, leaves the
process in 64-bit mode, and computes `TODAY` in the precision the user had chosen before (32-bit unless the user had
enabled 64-bit mode), every other constant in 64-bit precision. -/
theorem C110_first_import (b : Bool) (flags : List Bool) (m : Module) :
    ∃ s, run (flags.map Event.setX64 ++ [Event.imp m]) (fresh b) = some s ∧ m ∈ s.finished ∧ s.x64 = true ∧
      (Const.TODAY, (b :: flags).getLast (by simp)) ∈ s.consts ∧ ∀ c p, (c, p) ∈ s.consts → c ≠ .TODAY → p = true := by
  have hf : ∀ (flags : List Bool) (b : Bool), run (flags.map Event.setX64 ++ [Event.imp m]) (fresh b) =
      importModule m (fresh ((b :: flags).getLast (by simp))) := by
    intro flags
    induction flags with
    | nil => intro b; simp [run, step]
    | cons f fs ih => intro b; have := ih f; simp only [List.map_cons, List.cons_append, run, step]; rw [List.getLast_cons_cons]
                      exact this
  rw [hf]
  generalize (b :: flags).getLast (by simp) = b'
  obtain ⟨s0, h0, hg0, hx, hc0, hs0⟩ := import_dsps_good b'
  obtain ⟨s', h1, h2, h3⟩ := import_ext s0 hg0 m
  refine ⟨s', by rw [import_first, h0]; exact h1, ((hg0.ext h2).fin m).1 h3, by rw [h2.x64, hx]; rfl, ?_, ?_⟩
  · rw [h2.consts, hc0]; simp
  · intro c p hcp hne
    rw [h2.consts, hc0, hx] at hcp
    simp only [List.mem_append, List.mem_singleton, Prod.mk.injEq, List.mem_filterMap, Option.map_eq_some_iff] at hcp
    rcases hcp with h | ⟨q, -, a, -, -, h⟩
    · exact absurd h.1 hne
    · exact h.symm

/-- C110: a process that has not touched the flag (JAX default: 32-bit) and imports dsps ends up in 64-bit mode with a
`TODAY` that was computed in 32-bit precision. -/
theorem C110_today_single_precision : ∃ s, run [Event.imp .dsps] (fresh false) = some s ∧ s.x64 = true ∧
    s.consts = [(Const.TODAY, false)] := by
  obtain ⟨s, h, -, h1, h2, -⟩ := import_dsps_good false
  exact ⟨s, by simp [run, step, h], h1, h2⟩

/-- C110: once dsps is loaded, importing further modules never switches 64-bit mode off, and switches it on (undoing a user's
explicit choice of 32-bit mode) exactly on the first import of a module of `dsps.dust`. -/
theorem C110_flag_after_import {b : Bool} {history : List Event} {s s' : State} {m : Module}
    (h : run history (fresh b) = some s) (hd : Module.dsps ∈ s.started) (hm : run [Event.imp m] s = some s') :
    s'.x64 = true ↔ s.x64 = true ∨ (InDust m ∧ Module.dust ∉ s.started) := by
  obtain ⟨s1, h1, h2, -⟩ := impInv_run (impInv_fresh b) history
  rw [h] at h1; obtain rfl := Option.some.inj h1
  rcases h2 with h2 | ⟨hg, -, -⟩
  · rw [h2] at hd; simp [fresh] at hd
  obtain ⟨s1, h3, h4, -⟩ := import_ext s hg m
  have : run [Event.imp m] s = some s1 := by simp [run, step, h3]
  rw [hm] at this; obtain rfl := Option.some.inj this
  rw [h4.x64, Bool.or_eq_true, decide_eq_true_iff]
  have key : Module.dust_blackbody ∈ deps m ↔ InDust m := by
    unfold InDust; cases m <;> decide
  have hbd : Module.dust_blackbody ∈ s.started ↔ Module.dust ∈ s.started := ⟨hg.dust', hg.dust⟩
  unfold newly
  rw [List.mem_filter, key]
  simp [hbd]

/-- Non-vacuity: a user who works in 32-bit mode imports dsps (the flag flips), switches back to 32 bit, imports the burst
module (default burst parameters computed in 32 bit) and then the dust module (the flag flips again). -/
example : ∃ s, run [.imp .dsps, .setX64 false, .imp .sfh_diffburst, .imp .dust_att_curves] (fresh false) = some s ∧
    s.x64 = true ∧ s.consts = [(.TODAY, false), (.DEFAULT_BURST_U_PARAMS, false)] := by
  refine ⟨(run [.imp .dsps, .setX64 false, .imp .sfh_diffburst, .imp .dust_att_curves] (fresh false)).get ?_, ?_, ?_, ?_⟩ <;>
    decide +kernel

/-- the theorems on that history: every module body ran once, the constants never change afterwards, and a later import of a dust
module that has already run leaves the flag alone -/
example : ∃ s s', run [.imp .dsps, .setX64 false, .imp .sfh_diffburst] (fresh false) = some s ∧
    run [.imp .dust_att_curves] s = some s' ∧ s.started.Nodup ∧ s.consts <+: s'.consts ∧
    (s'.x64 = true ↔ s.x64 = true ∨ (InDust .dust_att_curves ∧ Module.dust ∉ s.started)) := by
  have h1 : (run [.imp .dsps, .setX64 false, .imp .sfh_diffburst] (fresh false)).isSome := by decide +kernel
  have h2 : (run [.imp .dust_att_curves] ((run [.imp .dsps, .setX64 false, .imp .sfh_diffburst] (fresh false)).get h1)).isSome := by
    decide +kernel +revert
  have hs := (Option.some_get h1).symm
  have hs' := (Option.some_get h2).symm
  exact ⟨_, _, hs, hs', (C110_executed_once hs).1, (C110_constants_fixed hs hs').1, C110_flag_after_import hs (by clear hs hs' h2; decide +kernel +revert) hs'⟩

end Dsps.Props
