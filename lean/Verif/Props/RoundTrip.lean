import Verif.Props.EmLines
import Verif.Model.LoadSspData
import Mathlib.Tactic
import Verif.Cases

/-! C69: data written by the script and read back by the loader. -/
namespace Dsps.Props
open Py Dsps.DataDefaults Dsps.Lemmas Dsps.LoadSspData

variable [XID]

/-- Specification: the data as the loader documents them – luminosities in erg/s instead of Lsun. -/
noncomputable def toCgs (lum : List (List (List ℝ))) : List (List (List ℝ)) :=
  lum.map (List.map (List.map fun x => x * 3.828e33))

theorem write_four (d : SSPData) :
    write_arrays (DEFAULT_SSP_KEYS.zip (firstFour d)) [] =
      ([(chars! "ssp_lgmet", .d1 d.ssp_lgmet), (chars! "ssp_lg_age_gyr", .d1 d.ssp_lg_age_gyr),
        (chars! "ssp_wave", .d1 d.ssp_wave), (chars! "ssp_flux", .d3 d.ssp_flux)], .ok ()) := rfl

theorem emline_arrays_ok {nt : NamedTuple} (h : nt.WF) : emline_arrays (some nt) = .ok (nt.fields, nt.values) := by
  unfold emline_arrays
  have : nt.fields.mapM (fun name => nt.getattr name) = .ok nt.values := by
    rw [mapM_ok_iff]
    refine (map_lookup_self nt.fields nt.values h.nodup h.len).imp fun n x hx => ?_
    simp only [NamedTuple.getattr, hx]
  simp only [this]; rfl

/-- an identifier contains no NUL character -/
theorem field_no_nul {s : Str} (h : isFieldName s = true) : ∀ c ∈ s, c.toNat ≠ 0 := by
  intro c hc h0
  have hid : isIdentifier s = true := by
    unfold isFieldName at h; simp only [Bool.and_eq_true] at h; exact h.1.1
  have hc0 : c = Char.ofNat 0 := by
    apply Char.ext; apply UInt32.toNat_inj.1; rw [show c.val.toNat = 0 from h0]; rfl
  cases s with
  | nil => simp at hc
  | cons a s =>
    simp only [isIdentifier, Bool.and_eq_true, List.all_eq_true] at hid
    rcases List.mem_cons.1 hc with rfl | hc
    · have := hid.1; rw [hc0] at this; cases this
    · have := hid.2 c hc; rw [hc0] at this; cases this

theorem unpad {b : List ℕ} (hb : ∀ x ∈ b, x ≠ 0) (k : ℕ) :
    ((b ++ List.replicate k 0).reverse.dropWhile (· = 0)).reverse = b := by
  rw [List.reverse_append, List.reverse_replicate]
  have h1 : (List.replicate k 0 ++ b.reverse).dropWhile (fun x => decide (x = 0)) = b.reverse := by
    induction k with
    | zero =>
      simp only [List.replicate_zero, List.nil_append]
      cases hr : b.reverse with
      | nil => rfl
      | cons a l =>
        rw [List.dropWhile_cons_of_neg]
        have : a ∈ b := by rw [← List.mem_reverse, hr]; simp
        simpa using hb a this
    | succ k ih =>
      rw [List.replicate_succ, List.cons_append, List.dropWhile_cons_of_pos (by simp)]; exact ih
  rw [h1, List.reverse_reverse]

theorem ofNat_toNat (s : Str) : (s.map Char.toNat).map Char.ofNat = s := by
  rw [List.map_map]
  conv_rhs => rw [← List.map_id s]
  apply List.map_congr_left
  intro c _; exact Char.ofNat_toNat c

theorem decode_encode {s : Str} (ha : s.all isAscii = true) : decode (s.map Char.toNat) = .ok s := by
  unfold decode
  rw [if_pos, ofNat_toNat]
  rw [List.all_map]
  simpa [isAscii] using ha

theorem encode_all {names : List Str} (ha : ∀ s ∈ names, s.all isAscii = true) :
    names.mapM encode = .ok (names.map (List.map Char.toNat)) := by
  rw [mapM_congr (g := fun s => .ok (s.map Char.toNat)), mapM_ok_map]
  intro s hs; unfold encode; rw [if_pos (ha s hs)]

theorem le_foldl_max (bs : List (List ℕ)) (k : ℕ) :
    k ≤ bs.foldl (fun m b => max m b.length) k ∧ ∀ b ∈ bs, b.length ≤ bs.foldl (fun m b => max m b.length) k := by
  induction bs generalizing k with
  | nil => simp
  | cons b bs ih =>
    simp only [List.foldl_cons]
    obtain ⟨h1, h2⟩ := ih (max k b.length)
    refine ⟨(le_max_left _ _).trans h1, ?_⟩
    intro c hc
    rcases List.mem_cons.1 hc with rfl | hc
    · exact (le_max_right _ _).trans h1
    · exact h2 c hc

/-- the byte strings come back as the names -/
theorem names_back {names : List Str} (ha : ∀ s ∈ names, s.all isAscii = true) (hz : ∀ s ∈ names, isFieldName s = true) :
    ∃ d, npBytes names = .ok d ∧ ∃ bs, asBytes d = .ok bs ∧ bs.mapM decode = .ok names := by
  unfold npBytes
  rw [encode_all ha]
  refine ⟨_, rfl, _, rfl, ?_⟩
  rw [List.map_map, List.map_map]
  rw [mapM_ok_iff, List.forall₂_map_left_iff, List.forall₂_same]
  intro s hs
  simp only [Function.comp_apply]
  have hw := (le_foldl_max (names.map (List.map Char.toNat)) 1).2 _ (List.mem_map_of_mem hs)
  rw [List.take_of_length_le (by simp only [List.length_append, List.length_replicate]; omega), unpad]
  · exact decode_encode (ha s hs)
  · intro x hx
    obtain ⟨c, hc, rfl⟩ := List.mem_map.1 hx
    exact field_no_nul (hz s hs) c hc

/-- what the loader sees in a file with the seven datasets -/
theorem read_seven {d : SSPData} {nt : NamedTuple} {lum : List (List (List ℝ))} (hwf : nt.WF) {b : Dset} {bs : List (List ℕ)}
    (hb : asBytes b = .ok bs) (hn : bs.mapM decode = .ok nt.fields) :
    read_ssp [(chars! "ssp_lgmet", .d1 d.ssp_lgmet), (chars! "ssp_lg_age_gyr", .d1 d.ssp_lg_age_gyr),
        (chars! "ssp_wave", .d1 d.ssp_wave), (chars! "ssp_flux", .d3 d.ssp_flux), (chars! "ssp_emline_name", b),
        (chars! "ssp_emline_wave", .d1 nt.values), (chars! "ssp_emline_luminosity", .d3 lum)] =
      .ok { d with ssp_emline_wave := some nt, ssp_emline_luminosity := some (toCgs lum) } := by
  have h1 : read_ssp [(chars! "ssp_lgmet", .d1 d.ssp_lgmet), (chars! "ssp_lg_age_gyr", .d1 d.ssp_lg_age_gyr),
        (chars! "ssp_wave", .d1 d.ssp_wave), (chars! "ssp_flux", .d3 d.ssp_flux), (chars! "ssp_emline_name", b),
        (chars! "ssp_emline_wave", .d1 nt.values), (chars! "ssp_emline_luminosity", .d3 lum)] =
      (do let bs ← asBytes b
          let ssp_emline_name ← bs.mapM decode
          let t ← namedtupleType ssp_emline_name
          let nt' ← construct t nt.values
          return { d with ssp_emline_wave := some nt', ssp_emline_luminosity := some (toCgs lum) }) := rfl
  rw [h1, hb]
  simp only [bind, Except.bind, hn]
  have hv : (nt.fields.all isFieldName && decide nt.fields.Nodup) = true := by
    simp only [hwf.nodup, decide_true, Bool.and_true, List.all_eq_true]
    exact hwf.valid
  simp only [namedtupleType, hv, if_true, construct, hwf.len]
  rfl

/-- **Round trip.**  For data with emission lines whose names are ASCII, the script ends normally and loading the file gives
the same arrays, the same names with the same wavelengths, and the luminosities multiplied by `L_SUN_CGS`. -/
theorem C69_round_trip {d : SSPData} {nt : NamedTuple} {lum : List (List (List ℝ))}
    (hw : d.ssp_emline_wave = some nt) (hl : d.ssp_emline_luminosity = some lum) (hwf : nt.WF)
    (ha : ∀ s ∈ nt.fields, s.all isAscii = true) :
    ∃ hdf, write_ssp_data d = (hdf, .ok ()) ∧
      read_ssp hdf = .ok { d with ssp_emline_luminosity := some (toCgs lum) } := by
  obtain ⟨b, hb, bs, hbs, hdec⟩ := names_back ha hwf.valid
  unfold write_ssp_data
  rw [write_four]
  simp only [hw, emline_arrays_ok hwf, hl, write_emlines, hb]
  refine ⟨_, rfl, ?_⟩
  have := read_seven (d := d) (lum := lum) hwf hbs hdec
  rw [hw] at *
  exact this

/-- The same, through `load_ssp_templates` and a file system holding the written file. -/
theorem C69_round_trip_file {d : SSPData} {nt : NamedTuple} {lum : List (List (List ℝ))}
    (hw : d.ssp_emline_wave = some nt) (hl : d.ssp_emline_luminosity = some lum) (hwf : nt.WF)
    (ha : ∀ s ∈ nt.fields, s.all isAscii = true) (fake : Except PyErr SSPData) (w : World) (f : Str) (drn : Option Str)
    (bn : Str) (hf : w.isfile f = true) (hh : w.hdf f = some (write_ssp_data d).1) :
    load_ssp_templates fake w (some f) drn bn false =
      .ok { d with ssp_emline_luminosity := some (toCgs lum) } := by
  obtain ⟨hdf, h1, h2⟩ := C69_round_trip hw hl hwf ha
  unfold load_ssp_templates
  have hr : resolve w (some f) drn bn = .ok f := by
    unfold resolve; simp only [hf, if_true, pure_bind]; rfl
  simp only [hr, bind, Except.bind, hh, h1, h2]
  rfl

/-- Names and wavelengths keep their pairing (stated through attribute access). -/
theorem C69_pairing {d r : SSPData} {nt : NamedTuple} {lum : List (List (List ℝ))}
    (hw : d.ssp_emline_wave = some nt) (hl : d.ssp_emline_luminosity = some lum) (hwf : nt.WF)
    (ha : ∀ s ∈ nt.fields, s.all isAscii = true) (hr : read_ssp (write_ssp_data d).1 = .ok r) :
    ∃ nt', r.ssp_emline_wave = some nt' ∧ nt'.fields = nt.fields ∧ ∀ name, nt'.getattr name = nt.getattr name := by
  obtain ⟨hdf, h1, h2⟩ := C69_round_trip hw hl hwf ha
  rw [h1] at hr
  rw [show (hdf, (Except.ok () : Except PyErr Unit)).1 = hdf from rfl, h2] at hr
  cases hr
  exact ⟨nt, hw, rfl, fun _ => rfl⟩

/-- **Negation for data without emission lines.**  The script ends with an AttributeError (`None._fields`): its test
`"ssp_emline_wave" in ssp_data._fields` is always true. -/
theorem C69_no_lines_script_raises {d : SSPData} (hw : d.ssp_emline_wave = none) :
    (write_ssp_data d).2 = .error .attributeError := by
  unfold write_ssp_data
  rw [write_four]
  simp only [hw, emline_arrays]

/-- … but by then the four arrays are on disk, and that file loads as the original data. -/
theorem C69_no_lines_file_loads_partial {d : SSPData} (hw : d.ssp_emline_wave = none) (hl : d.ssp_emline_luminosity = none) :
    read_ssp (write_ssp_data d).1 = .ok d := by
  unfold write_ssp_data
  rw [write_four]
  simp only [hw, emline_arrays]
  obtain ⟨a, b, c, e, f, g⟩ := d
  simp only at hw hl
  subst hw hl
  rfl

/-- A line name with a non-ASCII character cannot be written: the script raises after the four arrays. -/
theorem C69_non_ascii {d : SSPData} {nt : NamedTuple} (hw : d.ssp_emline_wave = some nt) (hwf : nt.WF)
    {s : Str} (hs : s ∈ nt.fields) (ha : s.all isAscii = false) : (write_ssp_data d).2 = .error .unicodeError := by
  unfold write_ssp_data
  rw [write_four]
  simp only [hw, emline_arrays_ok hwf, write_emlines]
  have : npBytes nt.fields = .error .unicodeError := by
    unfold npBytes
    cases hm : nt.fields.mapM encode with
    | error e =>
      obtain ⟨t, -, ht⟩ := mapM_error hm
      unfold encode at ht
      split_ifs at ht
      cases ht; rfl
    | ok r =>
      obtain ⟨b, hb⟩ := mapM_ok_exists.1 ⟨r, hm⟩ s hs
      unfold encode at hb
      rw [ha] at hb; cases hb
  rw [this]

/-- Loading never yields a malformed namedtuple, whatever the file holds. -/
theorem C69_loaded_wf {hdf : Hdf} {r : SSPData} (h : read_ssp hdf = .ok r) (nt : NamedTuple)
    (hnt : r.ssp_emline_wave = some nt) : nt.WF := by
  unfold read_ssp at h
  simp only [bind, Except.bind] at h
  repeat' split at h
  all_goals first
    | (cases h; done)
    | skip
  all_goals first
    | (cases h; simp at hnt; done)
    | skip
  cases h
  simp only [Option.some.injEq] at hnt
  subst hnt
  rename_i names _ _ _ _ _ _ _ _ _ _ _ t ht _ nt hc
  unfold namedtupleType at ht
  split_ifs at ht with hv
  cases ht
  unfold construct at hc
  split_ifs at hc with hlen
  cases hc
  simp only [Bool.and_eq_true, List.all_eq_true, decide_eq_true_eq] at hv
  exact ⟨hv.1, hv.2, hlen⟩

/-- C69 applied to the three-line data of `EmLines` -/
example := C69_round_trip (d := caseSsp) rfl rfl case_hasLines.wf (by unfold caseNt; decide)
example (fake : Except PyErr SSPData) := C69_round_trip_file (d := caseSsp) rfl rfl case_hasLines.wf (by unfold caseNt; decide) fake
  ⟨fun _ => none, fun _ => false, fun _ => true, fun _ => [], fun _ => some (write_ssp_data caseSsp).1⟩ (chars! "f.h5") none [] rfl rfl
theorem case_read : ∃ r, read_ssp (write_ssp_data caseSsp).1 = .ok r ∧ ∃ nt, r.ssp_emline_wave = some nt := by
  obtain ⟨hdf, h1, h2⟩ := C69_round_trip (d := caseSsp) rfl rfl case_hasLines.wf (by unfold caseNt; decide)
  exact ⟨_, by rw [h1]; exact h2, _, rfl⟩
example := C69_pairing (d := caseSsp) rfl rfl case_hasLines.wf (by unfold caseNt; decide) case_read.choose_spec.1
example := C69_loaded_wf case_read.choose_spec.1 _ case_read.choose_spec.2.choose_spec
/-- data without lines -/
example := C69_no_lines_script_raises (d := { caseSsp with ssp_emline_wave := none, ssp_emline_luminosity := none }) rfl
example := C69_no_lines_file_loads_partial (d := { caseSsp with ssp_emline_wave := none, ssp_emline_luminosity := none }) rfl rfl
/-- a line named `Hβ`, where Greek letters count as letters -/
example := @C69_non_ascii ⟨fun _ => true, fun _ => true⟩ { caseSsp with ssp_emline_wave := some ⟨[chars! "Hβ"], [4863]⟩ } ⟨[chars! "Hβ"], [4863]⟩
  rfl (@NamedTuple.WF.mk ⟨fun _ => true, fun _ => true⟩ _ (by decide) (by decide) rfl) (chars! "Hβ") (by decide) (by decide)

end Dsps.Props
