import Verif.Model.Imports
import Mathlib.Tactic

/-! Lemmas on the import model. -/
namespace Dsps.Lemmas.Imp
open Dsps.Imports

/-- The modules that `import dsps` executes. -/
def base : List Module :=
  [.dsps, .version, .data_loaders, .data_loaders_defaults, .data_loaders_load_filter_data, .data_loaders_load_ssp_data,
   .constants, .data_loaders_retrieve_fake_fsps_data, .data_loaders_retrieve_fsps_data, .photometry,
   .photometry_photometry_kernels, .cosmology, .cosmology_flat_wcdm, .utils, .cosmology_defaults, .sed,
   .sed_metallicity_weights, .sed_stellar_age_weights, .sed_ssp_weights, .sed_stellar_sed]

/-- No module is half imported and the base modules are there. -/
structure Good (s : State) : Prop where
  base : ∀ m ∈ base, m ∈ s.started
  fin : ∀ m, m ∈ s.started ↔ m ∈ s.finished
  dust : Module.dust ∈ s.started → Module.dust_blackbody ∈ s.started
  dust' : Module.dust_blackbody ∈ s.started → Module.dust ∈ s.started
  mzr : Module.metallicity_defaults ∈ s.started → Module.metallicity_mzr ∈ s.started
  umzr : Module.metallicity_diagnostics_plot_mzr ∈ s.started → Module.metallicity_umzr ∈ s.started

/-- The modules outside `base` that `import m` executes, in order of starting, when none of them is loaded. -/
def deps : Module → List Module
  | .data_loaders_load_emline_info => [.data_loaders_load_emline_info]
  | .dust | .dust_blackbody => [.dust, .dust_blackbody]
  | .dust_att_curves => [.dust, .dust_blackbody, .dust_att_curves]
  | .dust_utils => [.dust, .dust_blackbody, .dust_utils]
  | .em_lines => [.em_lines]
  | .em_lines_equivalent_width => [.em_lines, .em_lines_equivalent_width]
  | .experimental => [.experimental]
  | .imf => [.imf]
  | .imf_remnant_mass => [.imf, .imf_remnant_mass]
  | .imf_surviving_mstar => [.imf, .imf_surviving_mstar]
  | .metallicity => [.metallicity]
  | .metallicity_defaults => [.metallicity, .metallicity_defaults, .metallicity_mzr]
  | .metallicity_mzr => [.metallicity, .metallicity_mzr]
  | .metallicity_umzr => [.metallicity, .metallicity_umzr]
  | .metallicity_diagnostics => [.metallicity, .metallicity_diagnostics]
  | .metallicity_diagnostics_plot_mzr =>
      [.metallicity, .metallicity_diagnostics, .metallicity_diagnostics_plot_mzr, .metallicity_umzr]
  | .photometry_photpop => [.photometry_photpop]
  | .photometry_utils => [.photometry_utils]
  | .sfh => [.sfh]
  | .sfh_diffburst => [.sfh, .sfh_diffburst]
  | _ => []

def constOf : Module → Option Const
  | .cosmology_defaults => some .TODAY
  | .metallicity_umzr => some .DEFAULT_MZR_U_PARAMS
  | .sfh_diffburst => some .DEFAULT_BURST_U_PARAMS
  | _ => none

def newly (s : State) (m : Module) : List Module := (deps m).filter (· ∉ s.started)

theorem import_dsps (b : Bool) : importModule .dsps (fresh b) = some
    { x64 := true, started := base, consts := [(.TODAY, b)],
      finished := [.version, .data_loaders_defaults, .data_loaders_load_filter_data, .constants,
        .data_loaders_retrieve_fake_fsps_data, .data_loaders_load_ssp_data, .data_loaders_retrieve_fsps_data, .data_loaders,
        .utils, .cosmology_flat_wcdm, .cosmology_defaults, .cosmology, .photometry_photometry_kernels, .photometry,
        .sed_stellar_age_weights, .sed_metallicity_weights, .sed_ssp_weights, .sed_stellar_sed, .sed, .dsps] } := by
  cases b <;> decide +kernel

/-- The base modules have been executed. -/
def BaseDone (s : State) : Prop := ∀ m ∈ base, m ∈ s.started ∧ m ∈ s.finished

theorem Good.baseDone {s : State} (h : Good s) : BaseDone s := fun m hm => ⟨h.base m hm, (h.fin m).1 (h.base m hm)⟩

theorem importOne_old {m : Module} {s : State} {f : ℕ} (hf : 0 < f) (h : m ∈ s.started) : importOne f m s = some s := by
  obtain ⟨f, rfl⟩ := Nat.exists_eq_succ_of_ne_zero hf.ne'
  simp [importOne, h]

theorem importAll_old {s : State} : ∀ (l : List Module) (f : ℕ), l.length + 1 < f → (∀ m ∈ l, m ∈ s.started) →
    importAll f l s = some s := by
  intro l
  induction l with
  | nil => intro f hf _; obtain ⟨f, rfl⟩ := Nat.exists_eq_succ_of_ne_zero (by omega : f ≠ 0); simp [importAll]
  | cons m ms ih =>
    intro f hf h
    obtain ⟨f, rfl⟩ := Nat.exists_eq_succ_of_ne_zero (by omega : f ≠ 0)
    simp only [List.length_cons] at hf
    rw [importAll, importOne_old (by omega) (h m (by simp))]
    exact ih f (by omega) fun m' h' => h m' (by simp [h'])

def straight : Stmt → Bool
  | .fromImport t => t ∈ base
  | .fromImportSub _ _ => false
  | _ => true

/-- The effect of straight statements. -/
def eff : List Stmt → State → State
  | [], s => s
  | .enableX64 :: l, s => eff l { s with x64 := true }
  | .compute c :: l, s => eff l { s with consts := s.consts ++ [(c, s.x64)] }
  | _ :: l, s => eff l s

theorem packages_base : ∀ t ∈ base, ∀ m ∈ packages t ++ [t], m ∈ base := by decide +kernel

theorem packages_length (t : Module) : (packages t).length ≤ 3 := by cases t <;> decide

theorem runBody_straight : ∀ (l : List Stmt) (f : ℕ) (s : State), l.length + 8 < f → (∀ st ∈ l, straight st = true) →
    BaseDone s → runBody f l s = some (eff l s) := by
  intro l
  induction l with
  | nil =>
    intro f s hf _ _
    obtain ⟨f, rfl⟩ := Nat.exists_eq_succ_of_ne_zero (by omega : f ≠ 0); simp [runBody, eff]
  | cons st l ih =>
    intro f s hf h hb
    obtain ⟨f, rfl⟩ := Nat.exists_eq_succ_of_ne_zero (by omega : f ≠ 0)
    simp only [List.length_cons] at hf
    have hl : ∀ st ∈ l, straight st = true := fun st' h' => h st' (by simp [h'])
    cases st with
    | fromImport t =>
      have ht : t ∈ base := by simpa [straight] using h (.fromImport t) (by simp)
      have hp := packages_length t
      rw [runBody, importAll_old (packages t ++ [t]) f (by simp; omega) fun m hm => (hb m (packages_base t ht m hm)).1]
      simp only [Option.bind_eq_bind, Option.bind_some, (hb t ht).2, if_true, eff]
      exact ih f s (by omega) hl hb
    | fromImportSub p m => simp [straight] at h
    | enableX64 =>
      simp only [runBody, eff]
      exact ih f _ (by omega) hl hb
    | compute c =>
      simp only [runBody, eff]
      exact ih f _ (by omega) hl hb

/-- Importing a module whose body is straight. -/
def load (m : Module) (s : State) : State :=
  if m ∈ s.started then s
  else
    let s' := eff (body m) { s with started := s.started ++ [m] }
    { s' with finished := s'.finished ++ [m] }

theorem importOne_straight {m : Module} {s : State} {f : ℕ} (hf : 16 < f) (hm : ∀ st ∈ body m, straight st = true)
    (hb : BaseDone s) : importOne f m s = some (load m s) := by
  by_cases h : m ∈ s.started
  · rw [importOne_old (by omega) h, load, if_pos h]
  · obtain ⟨f, rfl⟩ := Nat.exists_eq_succ_of_ne_zero (by omega : f ≠ 0)
    have hl : (body m).length ≤ 5 := by cases m <;> decide
    rw [importOne, if_neg h, runBody_straight (body m) f { s with started := s.started ++ [m] } (by omega) hm
      (fun m' h' => ⟨by simp [(hb m' h').1], (hb m' h').2⟩)]
    simp [load, h]

theorem eff_started (l : List Stmt) (s : State) : (eff l s).started = s.started ∧ (eff l s).finished = s.finished := by
  induction l generalizing s with
  | nil => simp [eff]
  | cons st l ih => cases st <;> simp [eff, ih]

theorem load_baseDone {m : Module} {s : State} (hb : BaseDone s) : BaseDone (load m s) := by
  unfold load
  split_ifs
  · exact hb
  · intro m' h'
    obtain ⟨h1, h2⟩ := eff_started (body m) { s with started := s.started ++ [m] }
    simp only [h1, h2]
    exact ⟨by simp [(hb m' h').1], by simp [(hb m' h').2]⟩

theorem importAll_load {m : Module} {s : State} (hm : ∀ st ∈ body m, straight st = true) (hb : BaseDone s) :
    ∀ (pre : List Module) (f : ℕ), pre.length + 20 < f → (∀ p ∈ pre, p ∈ s.started) →
      importAll f (pre ++ [m]) s = some (load m s) := by
  intro pre
  induction pre with
  | nil =>
    intro f hf _
    obtain ⟨f, rfl⟩ := Nat.exists_eq_succ_of_ne_zero (by omega : f ≠ 0)
    obtain ⟨f, rfl⟩ := Nat.exists_eq_succ_of_ne_zero (by simp at hf; omega : f ≠ 0)
    simp only [List.length_nil] at hf
    rw [List.nil_append, importAll, importOne_straight (by omega) hm hb]
    simp [importAll]
  | cons p pre ih =>
    intro f hf h
    obtain ⟨f, rfl⟩ := Nat.exists_eq_succ_of_ne_zero (by omega : f ≠ 0)
    simp only [List.length_cons] at hf
    rw [List.cons_append, importAll, importOne_old (by omega) (h p (by simp))]
    exact ih f (by omega) fun q hq => h q (by simp [hq])

theorem load_mem {m : Module} {s : State} : m ∈ (load m s).started ∧
    (m ∉ s.started → m ∈ (load m s).finished) ∧ (∀ q ∈ s.started, q ∈ (load m s).started) ∧
    ∀ q ∈ s.finished, q ∈ (load m s).finished := by
  unfold load
  obtain ⟨h1, h2⟩ := eff_started (body m) { s with started := s.started ++ [m] }
  split_ifs with h
  · exact ⟨h, fun h' => absurd h h', fun q hq => hq, fun q hq => hq⟩
  · simp only [h1, h2]
    exact ⟨by simp, fun _ => by simp, fun q hq => by simp [hq], fun q hq => by simp [hq]⟩

/-- Importing a module whose body is the single statement `from t import ...`, `t` straight. -/
def load1 (m t : Module) (s : State) : State :=
  if m ∈ s.started then s
  else
    let s' := load t { s with started := s.started ++ [m] }
    { s' with finished := s'.finished ++ [m] }

theorem importOne_load1 {m t : Module} {s : State} {f : ℕ} (hf : 40 < f) (hm : body m = [.fromImport t])
    (ht : ∀ st ∈ body t, straight st = true) (hmt : t ≠ m)
    (hp : ∀ p ∈ packages t, p = m ∨ p ∈ s.started) (hfin : t ∈ s.started → t ∈ s.finished) (hb : BaseDone s) :
    importOne f m s = some (load1 m t s) := by
  by_cases h : m ∈ s.started
  · rw [importOne_old (by omega) h, load1, if_pos h]
  · obtain ⟨f, rfl⟩ := Nat.exists_eq_succ_of_ne_zero (by omega : f ≠ 0)
    obtain ⟨f, rfl⟩ := Nat.exists_eq_succ_of_ne_zero (by omega : f ≠ 0)
    have hl := packages_length t
    rw [importOne, if_neg h, hm, runBody, importAll_load (s := { s with started := s.started ++ [m] }) ht
      (fun m' h' => ⟨by simp [(hb m' h').1], (hb m' h').2⟩) (packages t) f (by omega)
      (fun p h' => by rcases hp p h' with rfl | h'' <;> simp [*])]
    have hmem : t ∈ (load t { s with started := s.started ++ [m] }).finished := by
      by_cases h' : t ∈ s.started
      · exact load_mem.2.2.2 t (hfin h')
      · exact load_mem.2.1 (by simp [h', hmt])
    obtain ⟨f, rfl⟩ := Nat.exists_eq_succ_of_ne_zero (by omega : f ≠ 0)
    simp only [Option.bind_eq_bind, Option.bind_some, hmem, if_true, runBody]
    simp [load1, h]

theorem importOne_loadSub {m t p : Module} {s : State} {f : ℕ} (hf : 40 < f) (hm : body m = [.fromImportSub p t])
    (ht : ∀ st ∈ body t, straight st = true) (hmt : t ≠ m)
    (hpp : ∀ q ∈ packages p ++ [p], q ∈ s.started) (hpf : p ∈ s.finished)
    (hp : ∀ q ∈ packages t, q ∈ s.started) (hfin : t ∈ s.started → t ∈ s.finished) (hb : BaseDone s) :
    importOne f m s = some (load1 m t s) := by
  by_cases h : m ∈ s.started
  · rw [importOne_old (by omega) h, load1, if_pos h]
  · obtain ⟨f, rfl⟩ := Nat.exists_eq_succ_of_ne_zero (by omega : f ≠ 0)
    obtain ⟨f, rfl⟩ := Nat.exists_eq_succ_of_ne_zero (by omega : f ≠ 0)
    have hl := packages_length t
    have hl' := packages_length p
    rw [importOne, if_neg h, hm, runBody,
      importAll_old (s := { s with started := s.started ++ [m] }) (packages p ++ [p]) f (by simp; omega)
        (fun q hq => by simp [hpp q hq])]
    simp only [Option.bind_eq_bind, Option.bind_some, hpf, if_true]
    rw [importAll_load (s := { s with started := s.started ++ [m] }) ht
      (fun m' h' => ⟨by simp [(hb m' h').1], (hb m' h').2⟩) (packages t) f (by omega)
      (fun p h' => by simp [hp p h'])]
    have hmem : t ∈ (load t { s with started := s.started ++ [m] }).finished := by
      by_cases h' : t ∈ s.started
      · exact load_mem.2.2.2 t (hfin h')
      · exact load_mem.2.1 (by simp [h', hmt])
    obtain ⟨f, rfl⟩ := Nat.exists_eq_succ_of_ne_zero (by omega : f ≠ 0)
    simp only [Option.bind_some, hmem, if_true, runBody]
    simp [load1, h]

/-- `s'` is `s` after executing exactly the modules `new`. -/
structure Ext (s : State) (new : List Module) (s' : State) : Prop where
  started : s'.started = s.started ++ new
  finished : ∀ q, q ∈ s'.finished ↔ q ∈ s.finished ∨ q ∈ new
  x64 : s'.x64 = (s.x64 || decide (Module.dust_blackbody ∈ new))
  consts : s'.consts = s.consts ++ new.filterMap (fun m => (constOf m).map (·, s.x64))

theorem Ext.refl (s : State) : Ext s [] s := ⟨by simp, by simp, by simp, by simp⟩

theorem Ext.trans {s s1 s2 : State} {a b : List Module} (h1 : Ext s a s1) (h2 : Ext s1 b s2)
    (h : Module.dust_blackbody ∉ a ∨ ∀ m ∈ b, constOf m = none) : Ext s (a ++ b) s2 := by
  refine ⟨by rw [h2.started, h1.started, List.append_assoc], fun q => by rw [h2.finished, h1.finished, List.mem_append, or_assoc],
    ?_, ?_⟩
  · rw [h2.x64, h1.x64]; simp [Bool.or_assoc]
  · rw [h2.consts, h1.consts, List.filterMap_append, List.append_assoc]
    congr 2
    rcases h with h | h
    · rw [h1.x64]; simp [h]
    · have : ∀ c : Bool, b.filterMap (fun m => (constOf m).map (·, c)) = [] := by
        intro c; rw [List.filterMap_eq_nil_iff]; intro m hm; simp [h m hm]
      rw [this, this]

/-- Modules outside the base with straight bodies. -/
def leaf : Module → Bool
  | .data_loaders_load_emline_info | .dust_blackbody | .dust_att_curves | .dust_utils | .em_lines | .em_lines_equivalent_width
  | .experimental | .imf | .imf_remnant_mass | .imf_surviving_mstar | .metallicity | .metallicity_mzr | .metallicity_umzr
  | .metallicity_diagnostics | .photometry_photpop | .photometry_utils | .sfh | .sfh_diffburst => true
  | _ => false

theorem leaf_straight {m : Module} (h : leaf m = true) : ∀ st ∈ body m, straight st = true := by
  cases m <;> first | (simp [leaf] at h; done) | decide

theorem load_ext {m : Module} (h : leaf m = true) (s : State) : Ext s (if m ∈ s.started then [] else [m]) (load m s) := by
  unfold load
  split_ifs with hm
  · exact Ext.refl s
  · cases m <;> first
      | (simp [leaf] at h; done)
      | (refine ⟨?_, ?_, ?_, ?_⟩ <;> simp [body, eff, constOf])

theorem load1_ext {m t : Module} (h : leaf t = true) (hmt : t ≠ m) (hc : constOf m = none) (hmb : m ≠ .dust_blackbody)
    (s : State) :
    Ext s (if m ∈ s.started then [] else m :: (if t ∈ s.started then [] else [t])) (load1 m t s) := by
  unfold load1
  by_cases hm : m ∈ s.started
  · simp only [hm, if_true]; exact Ext.refl s
  · simp only [hm, if_false]
    have := load_ext h { s with started := s.started ++ [m] }
    have e : (if t ∈ s.started ++ [m] then [] else [t]) = (if t ∈ s.started then ([] : List Module) else [t]) := by
      simp [hmt]
    simp only [e] at this
    refine ⟨?_, ?_, ?_, ?_⟩
    · rw [this.started]; simp
    · intro q; simp only [List.mem_append, this.finished]; simp; tauto
    · rw [this.x64]; simp [hmb.symm]
    · rw [this.consts]; simp [List.filterMap_cons, hc]

theorem Ext.baseDone {s s' : State} {new : List Module} (h : Ext s new s') (hb : BaseDone s) : BaseDone s' := fun m hm =>
  ⟨by rw [h.started]; simp [(hb m hm).1], (h.finished m).2 (Or.inl (hb m hm).2)⟩

theorem importAll_nil {f : ℕ} (hf : 0 < f) (s : State) : importAll f [] s = some s := by
  obtain ⟨f, rfl⟩ := Nat.exists_eq_succ_of_ne_zero hf.ne'
  simp [importAll]

theorem importAll_cons {f : ℕ} (m : Module) (ms : List Module) (s s' : State) (h : importOne f m s = some s') :
    importAll (f + 1) (m :: ms) s = importAll f ms s' := by
  rw [importAll, h]; rfl

/-- What `import m` does in a process where dsps is loaded. -/
theorem import_ext (s : State) (hg : Good s) (m : Module) :
    ∃ s', importModule m s = some s' ∧ Ext s (newly s m) s' ∧ m ∈ s'.started := by
  have hb := hg.baseDone
  have hd : Module.dsps ∈ s.started := hg.base _ (by decide)
  have h0 : ∀ ms, importAll 64 (.dsps :: ms) s = importAll 63 ms s := fun ms =>
    importAll_cons _ ms s s (importOne_old (by norm_num) hd)
  by_cases hmb : m ∈ base
  · refine ⟨s, ?_, ?_, hg.base m hmb⟩
    · have := packages_length m
      exact importAll_old _ _ (by simp; omega) fun q hq => hg.base q (packages_base m hmb q hq)
    · have : deps m = [] := by revert hmb; cases m <;> decide
      rw [newly, this]; exact Ext.refl s
  -- a module lying directly in the top-level package or in a base package
  have top : ∀ pre : List Module, (∀ p ∈ pre, p ∈ s.started) → packages m = pre → pre.length ≤ 3 → leaf m = true → deps m = [m] →
      ∃ s', importModule m s = some s' ∧ Ext s (newly s m) s' ∧ m ∈ s'.started := by
    intro pre hpre hp hlen hl hdm
    refine ⟨load m s, ?_, ?_, load_mem.1⟩
    · rw [importModule, hp]; exact importAll_load (leaf_straight hl) hb pre 64 (by omega) hpre
    · have := load_ext hl s
      rw [newly, hdm]
      convert this using 1
      by_cases h : m ∈ s.started <;> simp [h]
  -- a leaf in a leaf package
  have sub : ∀ p : Module, packages m = [.dsps, p] → leaf p = true → leaf m = true → deps m = [p, m] → m ≠ p →
      p ≠ .dust_blackbody → ∃ s', importModule m s = some s' ∧ Ext s (newly s m) s' ∧ m ∈ s'.started := by
    intro p hp hlp hlm hdm hne hpb
    have e1 := load_ext hlp s
    have e2 := load_ext hlm (load p s)
    refine ⟨load m (load p s), ?_, ?_, load_mem.1⟩
    · rw [importModule, hp]
      show importAll 64 (.dsps :: [p, m]) s = _
      rw [h0, importAll_cons p [m] s (load p s) (importOne_straight (by norm_num) (leaf_straight hlp) hb)]
      exact importAll_load (leaf_straight hlm) (e1.baseDone hb) [] 62 (by simp) (by simp)
    · have := e1.trans e2 (Or.inl (by split_ifs <;> simp [hpb.symm]))
      rw [newly, hdm]
      convert this using 1
      rw [e1.started]
      by_cases h1 : p ∈ s.started <;> by_cases h2 : m ∈ s.started <;> simp [h1, h2, hne]
  -- the dust package
  have hbbd : Module.dust_blackbody ∈ s.started → Module.dust_blackbody ∈ s.finished := fun h => (hg.fin _).1 h
  have dust1 : importOne 62 .dust s = some (load1 .dust .dust_blackbody s) :=
    importOne_load1 (by norm_num) rfl (leaf_straight rfl) (by decide)
      (by simp [packages, hd]) hbbd hb
  have edust := load1_ext (m := .dust) (t := .dust_blackbody) rfl (by decide) rfl (by decide) s
  have ndust : (if Module.dust ∈ s.started then [] else
      Module.dust :: (if Module.dust_blackbody ∈ s.started then [] else [Module.dust_blackbody])) =
      [Module.dust, Module.dust_blackbody].filter (· ∉ s.started) := by
    by_cases h1 : Module.dust ∈ s.started
    · simp [h1, hg.dust h1]
    · by_cases h2 : Module.dust_blackbody ∈ s.started <;> simp [h1, h2]
  rw [ndust] at edust
  have dustsub : packages m = [.dsps, .dust] → leaf m = true → constOf m = none → m ≠ .dust →
      (deps m).filter (· ∉ s.started) = [Module.dust, Module.dust_blackbody].filter (· ∉ s.started) ++
        (if m ∈ s.started ++ [Module.dust, Module.dust_blackbody].filter (· ∉ s.started) then [] else [m]) →
      ∃ s', importModule m s = some s' ∧ Ext s (newly s m) s' ∧ m ∈ s'.started := by
    intro hp hl hc hne hdm
    have e2 := load_ext hl (load1 .dust .dust_blackbody s)
    refine ⟨load m (load1 .dust .dust_blackbody s), ?_, ?_, load_mem.1⟩
    · rw [importModule, hp]
      show importAll 64 (.dsps :: [.dust, m]) s = _
      rw [h0, importAll_cons _ [m] s _ dust1]
      exact importAll_load (leaf_straight hl) (edust.baseDone hb) [] 62 (by simp) (by simp)
    · have := edust.trans e2 (Or.inr (by split_ifs <;> simp [hc]))
      rw [edust.started, ← hdm] at this
      exact this
  have fil : ∀ x : Module, x ∉ [Module.dust, Module.dust_blackbody] →
      ([Module.dust, Module.dust_blackbody, x].filter (· ∉ s.started)) =
        [Module.dust, Module.dust_blackbody].filter (· ∉ s.started) ++
        (if x ∈ s.started ++ [Module.dust, Module.dust_blackbody].filter (· ∉ s.started) then [] else [x]) := by
    intro x hx
    simp only [List.mem_cons, List.not_mem_nil, or_false, not_or] at hx
    by_cases h1 : Module.dust ∈ s.started <;> by_cases h2 : Module.dust_blackbody ∈ s.started <;>
      by_cases h3 : x ∈ s.started <;> simp [h1, h2, h3, hx.1, hx.2]
  -- the metallicity package
  have hlm : leaf .metallicity = true := rfl
  have emet := load_ext hlm s
  have met1 : importOne 62 .metallicity s = some (load .metallicity s) :=
    importOne_straight (by norm_num) (leaf_straight hlm) hb
  have hdm : Module.dsps ∈ (load .metallicity s).started := load_mem.2.2.1 _ hd
  have metfin : Module.metallicity ∈ (load .metallicity s).finished := by
    by_cases h : Module.metallicity ∈ s.started
    · exact load_mem.2.2.2 _ ((hg.fin _).1 h)
    · exact load_mem.2.1 h
  have finmet : ∀ t, t ∈ (load .metallicity s).started → t ∈ (load .metallicity s).finished := by
    intro t ht
    rw [emet.started, List.mem_append] at ht
    rw [emet.finished]
    exact ht.imp (hg.fin t).1 id
  have hpb : ∀ p ∈ [Module.dsps, Module.photometry], p ∈ s.started := by
    intro p hp; exact hg.base p (by revert hp; revert p; decide)
  have hdl : ∀ p ∈ [Module.dsps, Module.data_loaders], p ∈ s.started := by
    intro p hp; exact hg.base p (by revert hp; revert p; decide)
  have hdd : ∀ p ∈ [Module.dsps], p ∈ s.started := by simp [hd]
  cases m
  case dsps | version | constants | utils | cosmology | cosmology_flat_wcdm | cosmology_defaults | data_loaders
    | data_loaders_defaults | data_loaders_load_filter_data | data_loaders_load_ssp_data
    | data_loaders_retrieve_fake_fsps_data | data_loaders_retrieve_fsps_data | photometry | photometry_photometry_kernels
    | sed | sed_metallicity_weights | sed_ssp_weights | sed_stellar_age_weights | sed_stellar_sed =>
    exact absurd (by decide) hmb
  case data_loaders_load_emline_info => exact top _ hdl rfl (by simp) rfl rfl
  case photometry_photpop | photometry_utils => exact top _ hpb rfl (by simp) rfl rfl
  case em_lines | experimental | imf | metallicity | sfh => exact top _ hdd rfl (by simp) rfl rfl
  case em_lines_equivalent_width | imf_remnant_mass | imf_surviving_mstar | metallicity_mzr | metallicity_umzr
    | metallicity_diagnostics | sfh_diffburst => exact sub _ rfl rfl rfl rfl (by decide) (by decide)
  case dust =>
    refine ⟨_, ?_, edust, by rw [edust.started]; by_cases h : Module.dust ∈ s.started <;> simp [h]⟩
    show importAll 64 (.dsps :: [.dust]) s = _
    rw [h0, importAll_cons _ [] s _ dust1, importAll_nil (by norm_num)]
  case dust_att_curves | dust_utils => exact dustsub rfl rfl rfl (by decide) (fil _ (by decide))
  case dust_blackbody =>
    refine dustsub rfl rfl rfl (by decide) ?_
    have : Module.dust_blackbody ∈ s.started ++ [Module.dust, Module.dust_blackbody].filter (· ∉ s.started) := by
      by_cases h : Module.dust_blackbody ∈ s.started <;> simp [h]
    rw [if_pos this, List.append_nil]; rfl
  case metallicity_defaults =>
    have e2 := load1_ext (m := .metallicity_defaults) (t := .metallicity_mzr) rfl (by decide) rfl (by decide)
      (load .metallicity s)
    have h1 : importOne 61 .metallicity_defaults (load .metallicity s) =
        some (load1 .metallicity_defaults .metallicity_mzr (load .metallicity s)) :=
      importOne_load1 (by norm_num) rfl (leaf_straight rfl) (by decide)
        (by simp [packages, hdm, load_mem.1]) (finmet _) (emet.baseDone hb)
    have e := emet.trans e2 (Or.inl (by split_ifs <;> simp))
    refine ⟨load1 .metallicity_defaults .metallicity_mzr (load .metallicity s), ?_, ?_, ?_⟩
    rotate_left
    · convert e using 1
      rw [emet.started, newly, deps]
      by_cases a1 : Module.metallicity ∈ s.started <;> by_cases a2 : Module.metallicity_defaults ∈ s.started <;>
        by_cases a3 : Module.metallicity_mzr ∈ s.started <;> first
          | (exact absurd (hg.mzr a2) a3)
          | simp [a1, a2, a3]
    · rw [e2.started]
      by_cases a : Module.metallicity_defaults ∈ (load .metallicity s).started <;> simp [a]
    · show importAll 64 (.dsps :: [.metallicity, .metallicity_defaults]) s = _
      rw [h0, importAll_cons _ _ s _ met1, importAll_cons _ _ _ _ h1, importAll_nil (by norm_num)]
  case metallicity_diagnostics_plot_mzr =>
    have hld : leaf .metallicity_diagnostics = true := rfl
    have ed := load_ext hld (load .metallicity s)
    have d1 : importOne 61 .metallicity_diagnostics (load .metallicity s) =
        some (load .metallicity_diagnostics (load .metallicity s)) :=
      importOne_straight (by norm_num) (leaf_straight hld) (emet.baseDone hb)
    have e2 := load1_ext (m := .metallicity_diagnostics_plot_mzr) (t := .metallicity_umzr) rfl (by decide) rfl (by decide)
      (load .metallicity_diagnostics (load .metallicity s))
    have hdd' : Module.dsps ∈ (load .metallicity_diagnostics (load .metallicity s)).started := load_mem.2.2.1 _ hdm
    have hmm : Module.metallicity ∈ (load .metallicity_diagnostics (load .metallicity s)).started :=
      load_mem.2.2.1 _ load_mem.1
    have h1 : importOne 60 .metallicity_diagnostics_plot_mzr (load .metallicity_diagnostics (load .metallicity s)) =
        some (load1 .metallicity_diagnostics_plot_mzr .metallicity_umzr
          (load .metallicity_diagnostics (load .metallicity s))) :=
      importOne_loadSub (p := .metallicity) (by norm_num) rfl (leaf_straight rfl) (by decide)
        (by simp [packages, hdd', hmm]) (load_mem.2.2.2 _ metfin) (by simp [packages, hdd', hmm])
        (by
          intro ht
          rw [ed.started, List.mem_append] at ht
          rw [ed.finished]
          exact ht.imp (finmet _) id) (ed.baseDone (emet.baseDone hb))
    have e := (emet.trans ed (Or.inl (by split_ifs <;> simp))).trans e2
      (Or.inl (by split_ifs <;> simp))
    refine ⟨load1 .metallicity_diagnostics_plot_mzr .metallicity_umzr
      (load .metallicity_diagnostics (load .metallicity s)), ?_, ?_, ?_⟩
    rotate_left
    · convert e using 1
      rw [ed.started, emet.started, newly, deps]
      by_cases a1 : Module.metallicity ∈ s.started <;> by_cases a2 : Module.metallicity_diagnostics ∈ s.started <;>
        by_cases a3 : Module.metallicity_diagnostics_plot_mzr ∈ s.started <;>
        by_cases a4 : Module.metallicity_umzr ∈ s.started <;> first
          | (exact absurd (hg.umzr a3) a4)
          | simp [a1, a2, a3, a4]
    · rw [e2.started]
      by_cases a : Module.metallicity_diagnostics_plot_mzr ∈ (load .metallicity_diagnostics (load .metallicity s)).started <;>
        simp [a]
    · show importAll 64 (.dsps :: [.metallicity, .metallicity_diagnostics, .metallicity_diagnostics_plot_mzr]) s = _
      rw [h0, importAll_cons _ _ s _ met1, importAll_cons _ _ _ _ d1, importAll_cons _ _ _ _ h1, importAll_nil (by norm_num)]

theorem newly_nodup (s : State) (m : Module) : (newly s m).Nodup := by
  unfold newly
  exact List.Nodup.filter _ (by cases m <;> decide)

theorem newly_not_mem {s : State} {m q : Module} (h : q ∈ newly s m) : q ∉ s.started := by
  unfold newly at h
  simpa using (List.mem_filter.1 h).2

theorem Good.ext {s s' : State} (hg : Good s) {m : Module} (h : Ext s (newly s m) s') : Good s' := by
  have key : ∀ a b : Module, (∀ m, a ∈ deps m → b ∈ deps m) → (a ∈ s.started → b ∈ s.started) →
      a ∈ s'.started → b ∈ s'.started := by
    intro a b hab hs ha
    rw [h.started, List.mem_append] at ha ⊢
    rcases ha with ha | ha
    · exact Or.inl (hs ha)
    · by_cases hb : b ∈ s.started
      · exact Or.inl hb
      · right
        unfold newly at ha ⊢
        rw [List.mem_filter] at ha ⊢
        exact ⟨hab m ha.1, by simpa using hb⟩
  refine ⟨fun q hq => by rw [h.started]; simp [hg.base q hq], fun q => ?_, ?_, ?_, ?_, ?_⟩
  · rw [h.started, List.mem_append, h.finished, hg.fin]
  · exact key _ _ (by intro m; cases m <;> decide) hg.dust
  · exact key _ _ (by intro m; cases m <;> decide) hg.dust'
  · exact key _ _ (by intro m; cases m <;> decide) hg.mzr
  · exact key _ _ (by intro m; cases m <;> decide) hg.umzr

/-- The state right after `import dsps`. -/
theorem import_dsps_good (b : Bool) : ∃ s, importModule .dsps (fresh b) = some s ∧ Good s ∧ s.x64 = true ∧
    s.consts = [(.TODAY, b)] ∧ s.started = base := by
  refine ⟨_, import_dsps b, ⟨fun m h => h, ?_, ?_, ?_, ?_, ?_⟩, rfl, rfl, rfl⟩
  · intro m; cases b <;> cases m <;> decide +kernel
  all_goals (cases b <;> decide +kernel)

/-- The first import of any module starts with the whole of `import dsps`. -/
theorem import_first (b : Bool) (m : Module) : importModule m (fresh b) = importModule .dsps (fresh b) >>= importModule m := by
  revert b m
  have : ∀ b : Bool, ∀ m : Module, importModule m (fresh b) = importModule .dsps (fresh b) >>= importModule m := by
    intro b m
    cases b <;> cases m <;> decide +kernel
  exact this

end Dsps.Lemmas.Imp
