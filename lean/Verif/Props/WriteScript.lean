import Verif.Props.RoundTrip
import Verif.Props.Fsps
import Verif.Model.WriteScript

/-! C126: crash points and histories of the writer script. -/
namespace Dsps.Props
open Py Dsps.DataDefaults Dsps.Lemmas Dsps.LoadSspData Dsps.WriteScript

variable [XID]

/-- Specification: SSP data with emission lines the script can write (valid line names, all ASCII). -/
structure Writable (d : SSPData) (nt : NamedTuple) (lum : List (List (List ℝ))) : Prop where
  wave : d.ssp_emline_wave = some nt
  lumi : d.ssp_emline_luminosity = some lum
  wf : nt.WF
  ascii : ∀ s ∈ nt.fields, s.all isAscii = true

/-- Specification: what loading a completely written file gives (luminosities in erg/s). -/
noncomputable def complete (d : SSPData) (lum : List (List (List ℝ))) : SSPData :=
  { d with ssp_emline_luminosity := some (toCgs lum) }

/-- Specification: the same data without any emission lines. -/
def lineless (d : SSPData) : SSPData := { d with ssp_emline_wave := none, ssp_emline_luminosity := none }

theorem load_hdf (fake : Except PyErr SSPData) (w : World) (p : Str) (h : Hdf) : load fake w p (.hdf h) = read_ssp h := by
  unfold load load_ssp_templates resolve worldWith
  simp only [Bool.false_eq_true, if_false, if_true, pure_bind]

theorem load_absent (fake : Except PyErr SSPData) (w : World) (p : Str) : load fake w p .absent = .error .assertionError := by
  unfold load load_ssp_templates resolve worldWith
  simp only [Bool.false_eq_true, if_false, if_true, pure_bind]
  rfl

theorem load_unreadable (fake : Except PyErr SSPData) (w : World) (p : Str) :
    load fake w p .unreadable = .error .osError := by
  unfold load load_ssp_templates resolve worldWith
  simp only [Bool.false_eq_true, if_false, if_true, pure_bind]
  rfl

/-- the commands of a run on writable data -/
theorem trace_writable {d : SSPData} {nt : NamedTuple} {lum : List (List (List ℝ))} (h : Writable d nt lum) :
    ∃ b bs, asBytes b = .ok bs ∧ bs.mapM decode = .ok nt.fields ∧ write_trace d =
      ([.open_w, .create (chars! "ssp_lgmet") (.d1 d.ssp_lgmet), .create (chars! "ssp_lg_age_gyr") (.d1 d.ssp_lg_age_gyr),
        .create (chars! "ssp_wave") (.d1 d.ssp_wave), .create (chars! "ssp_flux") (.d3 d.ssp_flux),
        .create (chars! "ssp_emline_name") b, .create (chars! "ssp_emline_wave") (.d1 nt.values),
        .create (chars! "ssp_emline_luminosity") (.d3 lum)], .ok ()) := by
  obtain ⟨b, hb, bs, hbs, hdec⟩ := names_back h.ascii h.wf.valid
  refine ⟨b, bs, hbs, hdec, ?_⟩
  unfold write_trace
  simp only [h.wave, h.lumi, emline_arrays_ok h.wf, hb]
  rfl

/-- **Every crash point.**  A run on writable data issues eight commands.  Stopped after `k` of them (with the file closed):
nothing has happened (`k = 0`); loading fails with a KeyError (`k = 1..4` and `k = 6, 7`); it succeeds without the emission
lines (`k = 5`); it gives the complete data (`k = 8`). -/
theorem C126_crash_points {d : SSPData} {nt : NamedTuple} {lum : List (List (List ℝ))} (h : Writable d nt lum)
    (fake : Except PyErr SSPData) (w : World) (p : Str) (f : File) :
    (write_trace d).1.length = 8 ∧ (write_trace d).2 = .ok () ∧ after f (write_trace d).1 0 = f ∧
    (∀ k ∈ [1, 2, 3, 4, 6, 7], load fake w p (after f (write_trace d).1 k) = .error .keyError) ∧
    load fake w p (after f (write_trace d).1 5) = .ok (lineless d) ∧
    load fake w p (after f (write_trace d).1 8) = .ok (complete d lum) := by
  obtain ⟨b, bs, hb, hn, ht⟩ := trace_writable h
  rw [ht]
  refine ⟨rfl, rfl, rfl, ?_, ?_, ?_⟩
  · intro k hk
    fin_cases hk
    · exact load_hdf fake w p _
    · exact load_hdf fake w p _
    · exact load_hdf fake w p _
    · exact load_hdf fake w p _
    · refine (load_hdf fake w p _).trans ?_
      show read_ssp [(chars! "ssp_lgmet", .d1 d.ssp_lgmet), (chars! "ssp_lg_age_gyr", .d1 d.ssp_lg_age_gyr),
        (chars! "ssp_wave", .d1 d.ssp_wave), (chars! "ssp_flux", .d3 d.ssp_flux), (chars! "ssp_emline_name", b)] = _
      have : read_ssp [(chars! "ssp_lgmet", .d1 d.ssp_lgmet), (chars! "ssp_lg_age_gyr", .d1 d.ssp_lg_age_gyr),
          (chars! "ssp_wave", .d1 d.ssp_wave), (chars! "ssp_flux", .d3 d.ssp_flux), (chars! "ssp_emline_name", b)] =
          (do let bs ← asBytes b
              let _ ← bs.mapM decode
              .error .keyError) := rfl
      rw [this, hb]
      simp only [bind, Except.bind, hn]
    · refine (load_hdf fake w p _).trans ?_
      show read_ssp [(chars! "ssp_lgmet", .d1 d.ssp_lgmet), (chars! "ssp_lg_age_gyr", .d1 d.ssp_lg_age_gyr),
        (chars! "ssp_wave", .d1 d.ssp_wave), (chars! "ssp_flux", .d3 d.ssp_flux), (chars! "ssp_emline_name", b),
        (chars! "ssp_emline_wave", .d1 nt.values)] = _
      have : read_ssp [(chars! "ssp_lgmet", .d1 d.ssp_lgmet), (chars! "ssp_lg_age_gyr", .d1 d.ssp_lg_age_gyr),
          (chars! "ssp_wave", .d1 d.ssp_wave), (chars! "ssp_flux", .d3 d.ssp_flux), (chars! "ssp_emline_name", b),
          (chars! "ssp_emline_wave", .d1 nt.values)] =
          (do let bs ← asBytes b
              let _ ← bs.mapM decode
              .error .keyError) := rfl
      rw [this, hb]
      simp only [bind, Except.bind, hn]
  · exact load_hdf fake w p _
  · refine (load_hdf fake w p _).trans ?_
    have := read_seven (d := d) (lum := lum) h.wf hb hn
    rw [← h.wave] at this
    exact this

/-- the effect of the whole trace is the file of `C69` -/
theorem C126_whole_run (d : SSPData) (f : File) :
    after f (write_trace d).1 (write_trace d).1.length = .hdf (write_ssp_data d).1 ∧
      (write_trace d).2 = (write_ssp_data d).2 := by
  unfold write_trace write_ssp_data after
  rw [write_four]
  cases h : emline_arrays d.ssp_emline_wave with
  | error e => exact ⟨rfl, rfl⟩
  | ok nw =>
    obtain ⟨names, waves⟩ := nw
    simp only [write_emlines]
    cases hb : npBytes names with
    | error e => exact ⟨rfl, rfl⟩
    | ok b => cases hl : d.ssp_emline_luminosity with
      | none => exact ⟨rfl, rfl⟩
      | some lum => exact ⟨rfl, rfl⟩

/-- **No mixture.**  However a run on writable data is stopped, a file that loads afterwards holds either what was there before
the first command, or this run's data: complete, or with all of the emission lines missing. -/
theorem C126_no_mixture {d : SSPData} {nt : NamedTuple} {lum : List (List (List ℝ))} (h : Writable d nt lum)
    (fake : Except PyErr SSPData) (w : World) (p : Str) (f f' : File) (k : ℕ) (hs : Stopped f (write_trace d).1 k f')
    (r : SSPData) (hr : load fake w p f' = .ok r) :
    (k = 0 ∧ f' = f) ∨ (k = 5 ∧ r = lineless d) ∨ (8 ≤ k ∧ r = complete d lum) := by
  obtain ⟨hlen, _, h0, hbad, h5, h8⟩ := C126_crash_points h fake w p f
  cases hs with
  | killed hk => rw [load_unreadable] at hr; cases hr
  | closed =>
    by_cases hk : k < 8
    · by_cases h0' : k = 0
      · subst h0'; exact .inl ⟨rfl, h0⟩
      · by_cases h5' : k = 5
        · subst h5'; rw [h5] at hr; cases hr; exact .inr (.inl ⟨rfl, rfl⟩)
        · have : k ∈ [1, 2, 3, 4, 6, 7] := by
            interval_cases k <;> simp at h0' h5' ⊢
          rw [hbad k this] at hr; cases hr
    · push Not at hk
      have e : after f (write_trace d).1 k = after f (write_trace d).1 8 := by
        unfold after
        rw [List.take_of_length_le (by omega), List.take_of_length_le (by omega)]
      rw [e, h8] at hr; cases hr; exact .inr (.inr ⟨hk, rfl⟩)

/-- **Negation of "an interrupted write is always noticed".**  For every writable data set there is a point at which an
interrupted run leaves a file that loads without error but has lost the emission lines. -/
theorem C126_unnoticed_loss {d : SSPData} {nt : NamedTuple} {lum : List (List (List ℝ))} (h : Writable d nt lum)
    (fake : Except PyErr SSPData) (w : World) (p : Str) (f : File) :
    ∃ k < (write_trace d).1.length, ∃ f', Stopped f (write_trace d).1 k f' ∧ ∃ r, load fake w p f' = .ok r ∧
      r.ssp_emline_wave = none ∧ d.ssp_emline_wave ≠ none := by
  obtain ⟨hlen, _, _, _, h5, _⟩ := C126_crash_points h fake w p f
  exact ⟨5, by omega, _, .closed, _, h5, rfl, by rw [h.wave]; simp⟩

/-- **The old file.**  If retrieving the data fails, the output file is not touched; otherwise it is truncated by the first
command, and from then on its old contents play no role. -/
theorem C126_old_file (retrieve : List (Str × ℝ) → Except PyErr SSPData) (args : Args) (f g : File) :
    (∀ e, retrieve (kwargs args) = .error e → script retrieve args = ([], .error e)) ∧
    (∀ d, retrieve (kwargs args) = .ok d → 0 < (script retrieve args).1.length ∧
      (∀ k, 0 < k → after f (script retrieve args).1 k = after g (script retrieve args).1 k) ∧
      after f (script retrieve args).1 1 = .hdf []) := by
  constructor
  · intro e he; unfold script; rw [he]
  · intro d hd
    unfold script; rw [hd]
    have key : ∃ rest, (write_trace d).1 = .open_w :: rest := by
      unfold write_trace
      simp only
      split
      · exact ⟨_, rfl⟩
      · split
        · exact ⟨_, rfl⟩
        · split
          · exact ⟨_, rfl⟩
          · exact ⟨_, rfl⟩
    obtain ⟨rest, hrest⟩ := key
    simp only [hrest]
    refine ⟨by simp, ?_, rfl⟩
    intro k hk
    obtain ⟨k, rfl⟩ := Nat.exists_eq_succ_of_ne_zero hk.ne'
    rfl

/-- The command line arguments reach FSPS exactly as given: a value is passed whenever the option is present (also `0.0`), and
nothing is passed for an absent option. -/
theorem C126_arguments (args : Args) :
    (kwargs args).lookup (chars! "gas_logz") = args.gas_logz ∧ (kwargs args).lookup (chars! "gas_logu") = args.gas_logu ∧
    ∀ key, key ≠ chars! "gas_logz" → key ≠ chars! "gas_logu" → (kwargs args).lookup key = none := by
  obtain ⟨z, u⟩ := args
  have hne : (chars! "gas_logz" == chars! "gas_logu") = false := by decide
  have hne' : (chars! "gas_logu" == chars! "gas_logz") = false := by decide
  refine ⟨?_, ?_, ?_⟩
  · cases z <;> cases u <;> simp [kwargs, List.lookup, hne]
  · cases z <;> cases u <;> simp [kwargs, List.lookup, hne']
  · intro key h1 h2
    have e1 : (key == chars! "gas_logz") = false := by simpa using h1
    have e2 : (key == chars! "gas_logu") = false := by simpa using h2
    cases z <;> cases u <;> simp only [kwargs, List.lookup, List.nil_append, List.cons_append, e1, e2]

/-- One run of the script in a history: its data and where it was stopped. -/
structure Run where
  d : SSPData
  nt : NamedTuple
  lum : List (List (List ℝ))
  k : ℕ

/-- Specification: `History f runs f'`: starting from `f`, the runs (on writable data, each stopped somewhere) end in `f'`. -/
inductive History : File → List Run → File → Prop
  | nil (f) : History f [] f
  | cons {f f' f'' r rs} (hw : Writable r.d r.nt r.lum) (hs : Stopped f (write_trace r.d).1 r.k f') (h : History f' rs f'') :
      History f (r :: rs) f''

/-- **Histories.**  After any sequence of runs, interrupted anywhere, a file that loads holds what was there before all of
them, or the data of exactly one of the runs, complete or without its lines; and that run is the last one that touched the file. -/
theorem C126_histories {f f' : File} {runs : List Run} (h : History f runs f') (fake : Except PyErr SSPData) (w : World)
    (p : Str) (r : SSPData) (hr : load fake w p f' = .ok r) :
    (f' = f ∧ ∀ x ∈ runs, x.k = 0) ∨
    ∃ pre x post, runs = pre ++ x :: post ∧ (∀ y ∈ post, y.k = 0) ∧ 0 < x.k ∧
      ((x.k = 5 ∧ r = lineless x.d) ∨ (8 ≤ x.k ∧ r = complete x.d x.lum)) := by
  induction h with
  | nil f => exact .inl ⟨rfl, by simp⟩
  | @cons f f1 f2 x rs hw hs h ih =>
    rcases ih hr with ⟨rfl, hrest⟩ | ⟨pre, y, post, rfl, hpost, hk, hy⟩
    · rcases C126_no_mixture hw fake w p _ _ _ hs r hr with ⟨hk, rfl⟩ | ⟨hk, h1⟩ | ⟨hk, h1⟩
      · refine .inl ⟨rfl, ?_⟩
        intro y hy
        rcases List.mem_cons.1 hy with rfl | hy
        · exact hk
        · exact hrest y hy
      · exact .inr ⟨[], x, rs, rfl, hrest, by omega, .inl ⟨hk, h1⟩⟩
      · exact .inr ⟨[], x, rs, rfl, hrest, by omega, .inr ⟨hk, h1⟩⟩
    · exact .inr ⟨x :: pre, y, post, rfl, hpost, hk, hy⟩

/-- **Recovery.**  Whatever happened before, one complete run restores the file. -/
theorem C126_recovery {d : SSPData} {nt : NamedTuple} {lum : List (List (List ℝ))} (h : Writable d nt lum)
    (fake : Except PyErr SSPData) (w : World) (p : Str) (f : File) :
    load fake w p (after f (write_trace d).1 (write_trace d).1.length) = .ok (complete d lum) := by
  obtain ⟨hlen, _, _, _, _, h8⟩ := C126_crash_points h fake w p f
  rw [hlen]; exact h8

/-- **Data without lines** (FSPS without nebular emission): the script always ends with an AttributeError, after five commands;
from the fifth on the file loads as the data, before that not at all. -/
theorem C126_lineless_data {d : SSPData} (hw : d.ssp_emline_wave = none) (hl : d.ssp_emline_luminosity = none)
    (fake : Except PyErr SSPData) (w : World) (p : Str) (f : File) :
    (write_trace d).2 = .error .attributeError ∧ (write_trace d).1.length = 5 ∧
    (∀ k ∈ [1, 2, 3, 4], load fake w p (after f (write_trace d).1 k) = .error .keyError) ∧
    load fake w p (after f (write_trace d).1 5) = .ok d := by
  have ht : write_trace d = (Cmd.open_w :: (DEFAULT_SSP_KEYS.zip (firstFour d)).map fun ka => Cmd.create ka.1 ka.2,
      .error .attributeError) := by
    unfold write_trace; rw [hw]; rfl
  rw [ht]
  refine ⟨rfl, rfl, ?_, ?_⟩
  · intro k hk
    fin_cases hk <;> exact load_hdf fake w p _
  · refine (load_hdf fake w p _).trans ?_
    have : read_ssp [(chars! "ssp_lgmet", .d1 d.ssp_lgmet), (chars! "ssp_lg_age_gyr", .d1 d.ssp_lg_age_gyr),
        (chars! "ssp_wave", .d1 d.ssp_wave), (chars! "ssp_flux", .d3 d.ssp_flux)] = .ok (lineless d) := rfl
    refine this.trans ?_
    obtain ⟨a, b, c, e, g, i⟩ := d
    simp only at hw hl
    subst hw hl
    rfl

/-- data retrieved from an FSPS with emission lines are writable, if the reference names are ASCII -/
theorem retrieved_writable {κ : Type} {ref : List (ℝ × Str)} (ha : ∀ r ∈ ref, r.2.all isAscii = true)
    {fsps : RetrieveFsps.Fsps κ} {neb : Bool} {kw : κ} (hb : Uniform fsps true) {d : SSPData}
    (h : RetrieveFsps.retrieve_ssp_data_from_fsps ref fsps neb kw = .ok d) : ∃ nt lum, Writable d nt lum := by
  obtain ⟨nt, lum, hw, hl, hnt, -⟩ := (C71_emlines hb h).2 rfl
  obtain ⟨hwf, -, -, hf⟩ := C71_names hnt
  refine ⟨nt, lum, hw, hl, hwf, ?_⟩
  intro s hs
  have key : ∀ (ws : List ℝ) (fs : List Str),
      List.Forall₂ (fun w f => ∃ r ∈ ref, Matches w r.1 ∧ f = r.2.flatMap cleanChar) ws fs → s ∈ fs →
      ∃ r ∈ ref, s = r.2.flatMap cleanChar := by
    intro ws fs hh
    induction hh with
    | nil => simp
    | cons h1 _ ih =>
      intro hm
      rcases List.mem_cons.1 hm with rfl | hm
      · obtain ⟨r, hr, -, e⟩ := h1; exact ⟨r, hr, e⟩
      · exact ih hm
  obtain ⟨r, hr, rfl⟩ := key _ _ hf hs
  have h0 := ha r hr
  rw [List.all_eq_true] at h0 ⊢
  intro c hc
  obtain ⟨c', hc', hcc⟩ := List.mem_flatMap.1 hc
  unfold cleanChar at hcc
  split_ifs at hcc
  · simp at hcc; subst hcc; decide
  · simp at hcc; subst hcc; decide
  · simp at hcc
  · simp at hcc; subst hcc; exact h0 _ hc'

/-- **End to end.**  For an FSPS installation with emission lines: if the retrieval succeeds with the shipped line table, the
script ends normally, and loading its output gives the retrieved data with luminosities in erg/s – whatever the output
path held before. -/
theorem C126_end_to_end {ref : List (ℝ × Str)} (ha : ∀ r ∈ ref, r.2.all isAscii = true)
    {fsps : RetrieveFsps.Fsps (List (Str × ℝ))} (hb : Uniform fsps true) {args : Args} {d : SSPData}
    (h : RetrieveFsps.retrieve_ssp_data_from_fsps ref fsps true (kwargs args) = .ok d)
    (fake : Except PyErr SSPData) (w : World) (p : Str) (f : File) :
    let run := script (RetrieveFsps.retrieve_ssp_data_from_fsps ref fsps true) args
    run.2 = .ok () ∧ ∃ lum, d.ssp_emline_luminosity = some lum ∧
      load fake w p (after f run.1 run.1.length) = .ok (complete d lum) := by
  obtain ⟨nt, lum, hw⟩ := retrieved_writable ha hb h
  have hs : script (RetrieveFsps.retrieve_ssp_data_from_fsps ref fsps true) args = write_trace d := by
    unfold script; rw [h]
  simp only [hs]
  exact ⟨(C126_crash_points hw fake w p f).2.1, lum, hw.lumi, C126_recovery hw fake w p f⟩

/-- the shipped reference table qualifies -/
theorem C126_shipped_table_ascii : ∀ r ∈ shippedRef, r.2.all isAscii = true := by
  have h : ∀ r ∈ shippedTable, r.2.all isAscii = true := by decide +kernel
  intro r hr
  unfold shippedRef at hr
  obtain ⟨q, hq, rfl⟩ := List.mem_map.1 hr
  exact h q hq

/-! ### cases -/
theorem case_writable : Writable caseSsp caseNt [[[10, 20, 30]]] := ⟨rfl, rfl, case_hasLines.wf, by unfold caseNt; decide⟩
section
variable (fake : Except PyErr SSPData) (w : World)
example := C126_crash_points case_writable fake w (chars! "f.h5") .absent
example := C126_unnoticed_loss case_writable fake w (chars! "f.h5") (.hdf [])
example := C126_recovery case_writable fake w (chars! "f.h5") .unreadable
example := C126_no_mixture case_writable fake w (chars! "f.h5") .absent _ 5 .closed _ (C126_crash_points case_writable fake w (chars! "f.h5") .absent).2.2.2.2.1
/-- a run stopped after the four arrays, then one killed at once -/
theorem case_history : History .absent [⟨caseSsp, caseNt, [[[10, 20, 30]]], 5⟩, ⟨caseSsp, caseNt, [[[10, 20, 30]]], 0⟩]
    (after .absent (write_trace caseSsp).1 5) :=
  .cons case_writable .closed (.cons case_writable .closed (.nil _))
example := C126_histories case_history fake w (chars! "f.h5") _ (C126_crash_points case_writable fake w (chars! "f.h5") .absent).2.2.2.2.1
example := C126_lineless_data (d := lineless caseSsp) rfl rfl fake w (chars! "f.h5") .absent
example := (C126_old_file (fun _ => .ok caseSsp) {} (.hdf []) .unreadable).2 _ rfl
/-- the small FSPS of `Fsps` -/
example := C126_end_to_end (ref := [(6564.6, chars! "Ba-alpha 6563")]) (by intro r hr; simp at hr; subst hr; decide)
  (fsps := fun z b _ => caseFsps z b ()) (fun _ _ _ => rfl) (args := { gas_logz := some 0 }) case_retrieve fake w (chars! "f.h5") .absent
end
end Dsps.Props
