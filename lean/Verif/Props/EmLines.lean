import Verif.Model.LoadEmlineInfo
import Verif.Model.RetrieveFsps
import Verif.Lemmas.PyLemmas
import Verif.Cases

/-! C64, C65, C66: emission-line names, the line table and subsets of lines. -/
namespace Dsps.Props
open Py Dsps.DataDefaults Dsps.Lemmas

/-! ### C64 -/

/-- Specification of the clean-up, one character at a time. -/
def cleanChar (c : Char) : Str :=
  if c = '.' then ['p'] else if c = '-' ∨ c = ' ' then ['_'] else if c = '[' ∨ c = ']' then [] else [c]

/-- Both code paths clean a name by the same character-by-character rule. -/
theorem C64_sanitize_spec (s : Str) :
    LoadEmlineInfo.sanitize s = s.flatMap cleanChar ∧ RetrieveFsps.sanitize s = s.flatMap cleanChar := by
  constructor
  · unfold LoadEmlineInfo.sanitize
    rw [replace_eq s]
    simp only [replace_flatMap]
    congr 1; funext c
    unfold cleanChar
    by_cases h1 : c = '-'
    · subst h1; decide
    by_cases h2 : c = ' '
    · subst h2; decide
    by_cases h3 : c = '.'
    · subst h3; decide
    by_cases h4 : c = '['
    · subst h4; decide
    by_cases h5 : c = ']'
    · subst h5; decide
    simp [replace, h1, h2, h3, h4, h5]
  · unfold RetrieveFsps.sanitize
    rw [replace_eq s]
    simp only [replace_flatMap]
    congr 1; funext c
    unfold cleanChar
    by_cases h1 : c = '-'
    · subst h1; decide
    by_cases h2 : c = ' '
    · subst h2; decide
    by_cases h3 : c = '.'
    · subst h3; decide
    by_cases h4 : c = '['
    · subst h4; decide
    by_cases h5 : c = ']'
    · subst h5; decide
    simp [replace, h1, h2, h3, h4, h5]

/-- The two sanitisers agree on every string. -/
theorem C64_sanitizers_agree (s : Str) : LoadEmlineInfo.sanitize s = RetrieveFsps.sanitize s := by
  rw [(C64_sanitize_spec s).1, (C64_sanitize_spec s).2]

/-- No forbidden character survives. -/
theorem C64_sanitize_clean (s : Str) (c : Char) (hc : c ∈ LoadEmlineInfo.sanitize s) :
    c ≠ '.' ∧ c ≠ '-' ∧ c ≠ ' ' ∧ c ≠ '[' ∧ c ≠ ']' := by
  rw [(C64_sanitize_spec s).1, List.mem_flatMap] at hc
  obtain ⟨d, -, h⟩ := hc
  unfold cleanChar at h
  split_ifs at h with h1 h2 h3
  · rw [List.mem_singleton] at h; subst h; decide
  · rw [List.mem_singleton] at h; subst h; decide
  · simp at h
  · rw [List.mem_singleton] at h; subst h
    push Not at h2 h3
    exact ⟨h1, h2.1, h2.2, h3.1, h3.2⟩

/-- `C64_sanitize_clean` applied to a name of the shipped table -/
example := C64_sanitize_clean (chars! "[Mg II] 2795.53A") 'p' (by decide)

/-- A string without forbidden characters is left alone. -/
theorem C64_sanitize_id (s : Str) (h : ∀ c ∈ s, c ≠ '.' ∧ c ≠ '-' ∧ c ≠ ' ' ∧ c ≠ '[' ∧ c ≠ ']') :
    LoadEmlineInfo.sanitize s = s := by
  rw [(C64_sanitize_spec s).1]
  have : ∀ c ∈ s, cleanChar c = [c] := by
    intro c hc
    obtain ⟨h1, h2, h3, h4, h5⟩ := h c hc
    simp [cleanChar, h1, h2, h3, h4, h5]
  induction s with
  | nil => rfl
  | cons a s ih =>
    rw [List.flatMap_cons, this a (by simp), ih (fun c hc => h c (by simp [hc])) (fun c hc => this c (by simp [hc]))]
    rfl

/-- `C64_sanitize_id` applied to an already clean name -/
example := C64_sanitize_id (chars! "Mg_II_2795p53A") (by decide)

/-- Cleaning twice changes nothing. -/
theorem C64_sanitize_idempotent (s : Str) :
    LoadEmlineInfo.sanitize (LoadEmlineInfo.sanitize s) = LoadEmlineInfo.sanitize s :=
  C64_sanitize_id _ fun c hc => C64_sanitize_clean s c hc

/-- Cleaning is not injective: distinct raw names may collide. -/
theorem C64_sanitize_not_injective :
    ∃ s t : Str, s ≠ t ∧ LoadEmlineInfo.sanitize s = LoadEmlineInfo.sanitize t :=
  ⟨chars! "[C  I] 4621", chars! "C__I_4621", by decide, by decide⟩

example : LoadEmlineInfo.sanitize (chars! "[Mg II] 2795.53A") = chars! "Mg_II_2795p53A" := by decide

/-! ### C65 -/
section C65
open LoadEmlineInfo
variable {F : Type} {float : Str → Except PyErr F}

/-- Specification of one line of the table: after stripping it is `wave,name` with no other comma, `wave` is a number, and
the entry is the cleaned name with that number. -/
def IsEntry (float : Str → Except PyErr F) (raw : Str) (e : Str × F) : Prop :=
  ∃ a b : Str, strip raw = a ++ ',' :: b ∧ ',' ∉ a ∧ ',' ∉ b ∧ float a = .ok e.2 ∧ e.1 = b.flatMap cleanChar

theorem parse_line_iff {raw : Str} {e : Str × F} : parse_line float raw = .ok e ↔ IsEntry float raw e := by
  unfold parse_line IsEntry
  simp only [split]
  constructor
  · intro h
    split at h
    · rename_i a b hs
      obtain ⟨h1, h2, h3⟩ := splitOn_pair_iff.1 hs
      refine ⟨a, b, h1, h2, h3, ?_⟩
      cases hf : float a with
      | error e' => rw [hf] at h; cases h
      | ok v =>
        rw [hf] at h
        have h' : (Except.ok (sanitize b, v) : Except PyErr (Str × F)) = .ok e := h
        cases h'
        exact ⟨rfl, (C64_sanitize_spec b).1⟩
    · cases h
  · rintro ⟨a, b, h1, h2, h3, h4, h5⟩
    rw [splitOn_pair_iff.2 ⟨h1, h2, h3⟩]
    simp only [h4]
    obtain ⟨n, w⟩ := e
    simp only at h5 h4
    rw [h5, ← (C64_sanitize_spec b).1]
    rfl

theorem read_loop_eq (lines : List Str) (d : List (Str × F)) (c : List F) :
    read_loop float lines d c =
      match lines.mapM (parse_line float) with
      | .ok es => .ok (es.foldl (fun d e => dictSet d e.1 e.2) d, c ++ es.map Prod.snd)
      | .error e => .error e := by
  induction lines generalizing d c with
  | nil => simp [read_loop, pure, Except.pure]
  | cons raw rest ih =>
    rw [read_loop, List.mapM_cons]
    cases hp : parse_line float raw with
    | error e => rfl
    | ok e =>
      have : (Except.ok e >>= fun x => match x with
          | (line_name, line_wave) => read_loop float rest (dictSet d line_name line_wave) (c ++ [line_wave])) =
          read_loop float rest (dictSet d e.1 e.2) (c ++ [e.2]) := rfl
      rw [this, ih]
      cases hm : rest.mapM (parse_line float) with
      | error e' => rfl
      | ok es =>
        simp [bind, Except.bind, pure, Except.pure]

/-- The file is accepted iff every line is an entry. -/
theorem C65_accepts_iff (contents : Str) :
    (∃ r, read_emlines_info_fsps float contents = .ok r) ↔ ∀ raw ∈ fileLines contents, ∃ e, IsEntry float raw e := by
  unfold read_emlines_info_fsps
  rw [read_loop_eq]
  have := mapM_ok_exists (f := parse_line float) (l := fileLines contents)
  simp only [parse_line_iff] at this
  rw [← this]
  constructor
  · rintro ⟨r, hr⟩
    split at hr
    · rename_i es he; exact ⟨es, he⟩
    · cases hr
  · rintro ⟨es, he⟩
    rw [he]; exact ⟨_, rfl⟩

/-- On success: the dictionary has one key per distinct name, in order of first appearance, each mapped to the wavelength
on the *last* line bearing that name; the `testmode` array lists the wavelength of every line in file order. -/
theorem C65_contents {contents : Str} {d : List (Str × F)} {waves : List F}
    (h : read_emlines_info_fsps float contents = .ok (d, waves)) :
    ∃ entries : List (Str × F), List.Forall₂ (IsEntry float) (fileLines contents) entries ∧
      waves = entries.map Prod.snd ∧ d.map Prod.fst = (entries.map Prod.fst).eraseDups ∧
      ∀ name, d.lookup name = entries.reverse.lookup name := by
  unfold read_emlines_info_fsps at h
  rw [read_loop_eq] at h
  split at h
  · rename_i es he
    cases h
    refine ⟨es, ?_, by simp, keys_fold es, lookup_fold es⟩
    have := mapM_ok_iff.1 he
    exact this.imp fun a b hab => parse_line_iff.1 hab
  · cases h

/-- A line whose stripped text does not have exactly one comma (a blank line, for example) makes the reader raise; if
`float` only raises `ValueError`, every failure is a `ValueError`. -/
theorem C65_rejects {contents raw : Str} (hraw : raw ∈ fileLines contents) (hc : (strip raw).count ',' ≠ 1) :
    ∃ e, read_emlines_info_fsps float contents = .error e := by
  cases hr : read_emlines_info_fsps float contents with
  | error e => exact ⟨e, rfl⟩
  | ok r =>
    exfalso
    obtain ⟨e, a, b, h1, h2, h3, -⟩ := (C65_accepts_iff contents).1 ⟨r, hr⟩ raw hraw
    apply hc
    rw [h1, List.count_append, List.count_cons_self, List.count_eq_zero.2 h2, List.count_eq_zero.2 h3]

theorem C65_only_valueError (hf : ∀ s e, float s = .error e → e = .valueError) {contents : Str} {e : PyErr}
    (h : read_emlines_info_fsps float contents = .error e) : e = .valueError := by
  unfold read_emlines_info_fsps at h
  rw [read_loop_eq] at h
  split at h
  · cases h
  · rename_i e' he
    cases h
    obtain ⟨raw, -, hp⟩ := mapM_error he
    unfold parse_line at hp
    simp only at hp
    split at hp
    · rename_i a b hs
      cases hfa : float a with
      | error e'' => rw [hfa] at hp; cases hp; exact hf _ _ hfa
      | ok v => rw [hfa] at hp; cases hp
    · cases hp; rfl

/-- The lines of a file partition its (newline-translated) text; a newline occurs only at the end of a line. -/
theorem C65_fileLines (contents : Str) :
    (fileLines contents).flatten = universalNewlines contents ∧
      ∀ l ∈ fileLines contents, l ≠ [] ∧ '\n' ∉ l.dropLast := by
  unfold fileLines
  generalize universalNewlines contents = s
  induction s with
  | nil => simp [fileLines.go]
  | cons c s ih =>
    rw [fileLines.go]
    split_ifs with h
    · refine ⟨by simp [ih.1], fun l hl => ?_⟩
      rcases List.mem_cons.1 hl with rfl | hl
      · simp
      · exact ih.2 l hl
    · cases hg : fileLines.go s with
      | nil =>
        rw [hg] at ih
        simp only [List.flatten_nil] at ih
        refine ⟨by simp [← ih.1], fun l hl => ?_⟩
        simp only [List.mem_singleton] at hl
        subst hl; simp
      | cons l ls =>
        rw [hg] at ih
        refine ⟨by simpa using ih.1, fun l' hl => ?_⟩
        rcases List.mem_cons.1 hl with rfl | hl
        · obtain ⟨h1, h2⟩ := ih.2 l (by simp)
          refine ⟨by simp, ?_⟩
          rw [List.dropLast_cons_of_ne_nil h1]
          simp only [List.mem_cons, not_or]
          exact ⟨fun e => h e.symm, h2⟩
        · exact ih.2 l' (by simp [hl])

/-- `strip` removes exactly the surrounding white space. -/
theorem C65_strip (s : Str) :
    (∃ l r : Str, s = l ++ strip s ++ r ∧ (∀ c ∈ l, isSpace c) ∧ ∀ c ∈ r, isSpace c) ∧
      (∀ c ∈ (strip s).head?, isSpace c = false) ∧ ∀ c ∈ (strip s).getLast?, isSpace c = false := by
  unfold strip
  set t := s.dropWhile isSpace with ht
  have h1 : s = s.takeWhile isSpace ++ t := by rw [ht, List.takeWhile_append_dropWhile]
  set u := t.reverse.dropWhile isSpace with hu
  have h2 : t.reverse = t.reverse.takeWhile isSpace ++ u := by rw [hu, List.takeWhile_append_dropWhile]
  have h3 : t = u.reverse ++ (t.reverse.takeWhile isSpace).reverse := by
    have := congrArg List.reverse h2
    rwa [List.reverse_reverse, List.reverse_append] at this
  refine ⟨⟨s.takeWhile isSpace, (t.reverse.takeWhile isSpace).reverse, ?_, ?_, ?_⟩, ?_, ?_⟩
  · rw [List.append_assoc, ← h3]; exact h1
  · intro c hc; exact mem_takeWhile_imp hc
  · intro c hc
    rw [List.mem_reverse] at hc
    exact mem_takeWhile_imp hc
  · intro c hc
    -- the head of `u.reverse` is the head of `t`
    have hne : u.reverse ≠ [] := by rintro h; rw [h] at hc; simp at hc
    have hhead : t.head? = some c := by
      rw [h3, List.head?_append_of_ne_nil _ hne]; exact hc
    have := List.head?_dropWhile_not isSpace s
    rw [← ht, hhead] at this
    simpa using this
  · intro c hc
    rw [List.getLast?_reverse] at hc
    have := List.head?_dropWhile_not isSpace t.reverse
    rw [← hu, hc] at this
    simpa using this

/-- A table with a repeated name: the later line wins, the order is that of first appearance. -/
example : read_emlines_info_fsps (fun s => Except.ok s.length) (chars! "1,a.b\n22,c\r\n333,[a]p-\n4444,c") =
    .ok ([(chars! "apb", 1), (chars! "c", 4), (chars! "ap_", 3)], [1, 2, 3, 4]) := by decide
/-- A trailing blank line is fatal. -/
example : read_emlines_info_fsps (fun s => Except.ok s.length) (chars! "1,a\n\n") = .error .valueError := by decide

end C65

/-! ### C66 -/
section C66
open LoadEmlineInfo
variable [XID]

/-- A complete `SSPData` with emission lines: a namedtuple of wavelengths and one luminosity column per line. -/
structure HasLines (d : SSPData) (nt : NamedTuple) (lum : List (List (List ℝ))) : Prop where
  hwave : d.ssp_emline_wave = some nt
  hlum : d.ssp_emline_luminosity = some lum
  wf : nt.WF
  cols : ∀ m ∈ lum, ∀ row ∈ m, row.length = nt.fields.length

/-- the entry of `row` that belongs to line `name` -/
noncomputable def sel (fields : List Str) (row : List ℝ) (name : Str) : ℝ := ((fields.zip row).lookup name).getD 0

theorem take_sel {fields : List Str} {row : List ℝ} (hl : row.length = fields.length) {names : List Str}
    (hn : ∀ n ∈ names, n ∈ fields) : take row (names.map fields.idxOf) = .ok (names.map (sel fields row)) := by
  unfold take
  rw [mapM_ok_iff, List.forall₂_map_left_iff, List.forall₂_map_right_iff, List.forall₂_same]
  intro n h
  obtain ⟨y, hy⟩ := lookup_zip_isSome fields row hl (hn n h)
  have h2 := lookup_zip_idxOf fields row hl (hn n h)
  rw [hy] at h2
  rw [← h2]
  simp [sel, hy]

theorem index_ok {fields names : List Str} (hn : ∀ n ∈ names, n ∈ fields) :
    names.mapM (index fields) = .ok (names.map fields.idxOf) := by
  rw [mapM_congr (g := fun n => .ok (fields.idxOf n)), mapM_ok_map]
  intro n h; unfold index; rw [if_pos (hn n h)]

theorem subset_eq {d : SSPData} {nt : NamedTuple} {lum : List (List (List ℝ))} (h : HasLines d nt lum)
    {names : List Str} (hn : ∀ n ∈ names, n ∈ nt.fields) :
    get_subset_emline_data d names =
      if names = [] then .error .indexError
      else if names.Nodup then
        .ok { d with ssp_emline_wave := some ⟨names, names.map (sel nt.fields nt.values)⟩,
                     ssp_emline_luminosity := some (lum.map (List.map fun row => names.map (sel nt.fields row))) }
      else .error .valueError := by
  unfold get_subset_emline_data
  simp only [h.hwave, h.hlum]
  rw [index_ok hn]
  simp only [bind, Except.bind, List.map_eq_nil_iff]
  by_cases he : names = []
  · simp only [if_pos he]; rfl
  simp only [if_neg he]
  rw [take_sel h.wf.len hn]
  simp only
  by_cases hd : names.Nodup
  · have hv : (names.all isFieldName && decide names.Nodup) = true := by
      simp only [hd, decide_true, Bool.and_true, List.all_eq_true]
      exact fun n hn' => h.wf.valid n (hn n hn')
    have hl : (lum.mapM fun per_met => per_met.mapM fun row => take row (names.map nt.fields.idxOf)) =
        Except.ok (lum.map (List.map fun row => names.map (sel nt.fields row))) := by
      rw [mapM_congr (g := fun m => .ok (m.map fun row => names.map (sel nt.fields row))), mapM_ok_map]
      intro m hm
      rw [mapM_congr (g := fun row => .ok (names.map (sel nt.fields row))), mapM_ok_map]
      intro row hrow
      exact take_sel (h.cols m hm row hrow) hn
    simp only [namedtupleType, hv, if_true, construct, List.length_map, hl, if_pos hd]
    rfl
  · have hv : (names.all isFieldName && decide names.Nodup) = false := by simp [hd]
    simp only [namedtupleType, hv, if_neg hd]
    rfl

theorem subset_unknown {d : SSPData} {nt : NamedTuple} (h : d.ssp_emline_wave = some nt)
    {names : List Str} (hn : ¬ ∀ n ∈ names, n ∈ nt.fields) : get_subset_emline_data d names = .error .valueError := by
  unfold get_subset_emline_data
  simp only [h]
  cases hm : names.mapM (index nt.fields) with
  | ok r =>
    exfalso; apply hn
    intro n hn'
    obtain ⟨i, hi⟩ := mapM_ok_exists.1 ⟨r, hm⟩ n hn'
    unfold index at hi
    split_ifs at hi with hh
    exact hh
  | error e =>
    obtain ⟨n, -, hi⟩ := mapM_error hm
    unfold index at hi
    split_ifs at hi with hh
    cases hi
    rfl

/-- The call succeeds iff the list is non-empty, has no repetition, and names only existing lines. -/
theorem C66_succeeds_iff {d : SSPData} {nt : NamedTuple} {lum : List (List (List ℝ))} (h : HasLines d nt lum)
    (names : List Str) :
    (∃ r, get_subset_emline_data d names = .ok r) ↔ names ≠ [] ∧ names.Nodup ∧ ∀ n ∈ names, n ∈ nt.fields := by
  by_cases hn : ∀ n ∈ names, n ∈ nt.fields
  · rw [subset_eq h hn]
    split_ifs with h1 h2
    · simp [h1]
    · simp only [Except.ok.injEq, exists_eq', true_iff]; exact ⟨h1, h2, hn⟩
    · simp [h2]
  · rw [subset_unknown h.hwave hn]; simp [hn]

/-- The errors: unknown or repeated names give `ValueError`, the empty list `IndexError`. -/
theorem C66_errors {d : SSPData} {nt : NamedTuple} {lum : List (List (List ℝ))} (h : HasLines d nt lum)
    (names : List Str) :
    ((∃ n ∈ names, n ∉ nt.fields) → get_subset_emline_data d names = .error .valueError) ∧
    (¬ names.Nodup → get_subset_emline_data d names = .error .valueError) ∧
    (names = [] → get_subset_emline_data d names = .error .indexError) := by
  refine ⟨?_, ?_, ?_⟩
  · rintro ⟨n, h1, h2⟩
    exact subset_unknown h.hwave fun hn => h2 (hn n h1)
  · intro hd
    by_cases hn : ∀ n ∈ names, n ∈ nt.fields
    · rw [subset_eq h hn, if_neg (by rintro rfl; simp at hd), if_neg hd]
    · exact subset_unknown h.hwave hn
  · rintro rfl
    rw [subset_eq h (by simp), if_pos rfl]

/-- Data without emission lines: `AttributeError` for any non-empty request. -/
theorem C66_no_lines {d : SSPData} (h : d.ssp_emline_wave = none) {names : List Str} (hn : names ≠ []) :
    get_subset_emline_data d names = .error .attributeError := by
  unfold get_subset_emline_data
  simp only [h]
  cases names with
  | nil => exact absurd rfl hn
  | cons a l => rfl

/-- On success the result has exactly the requested lines in the requested order, every line keeps its own wavelength and its
own luminosity column at every metallicity and age, and all other fields are unchanged. -/
theorem C66_aligned {d r : SSPData} {nt : NamedTuple} {lum : List (List (List ℝ))} (h : HasLines d nt lum)
    {names : List Str} (hr : get_subset_emline_data d names = .ok r) :
    ∃ nt' lum', HasLines r nt' lum' ∧ nt'.fields = names ∧
      (∀ n ∈ names, ∃ w, nt.getattr n = .ok w ∧ nt'.getattr n = .ok w) ∧
      List.Forall₂ (List.Forall₂ fun row row' =>
        ∀ n ∈ names, (names.zip row').lookup n = (nt.fields.zip row).lookup n) lum lum' ∧
      r.ssp_lgmet = d.ssp_lgmet ∧ r.ssp_lg_age_gyr = d.ssp_lg_age_gyr ∧ r.ssp_wave = d.ssp_wave ∧
      r.ssp_flux = d.ssp_flux := by
  obtain ⟨h1, h2, h3⟩ := (C66_succeeds_iff h names).1 ⟨r, hr⟩
  rw [subset_eq h h3, if_neg h1, if_pos h2] at hr
  cases hr
  refine ⟨_, _, ⟨rfl, rfl, ⟨fun f hf => h.wf.valid f (h3 f hf), h2, by simp⟩, ?_⟩, rfl, ?_, ?_, rfl, rfl, rfl, rfl⟩
  · intro m hm row hrow
    obtain ⟨m', -, rfl⟩ := List.mem_map.1 hm
    obtain ⟨row', -, rfl⟩ := List.mem_map.1 hrow
    simp
  · intro n hn
    obtain ⟨y, hy⟩ := lookup_zip_isSome nt.fields nt.values h.wf.len (h3 n hn)
    refine ⟨y, by simp only [NamedTuple.getattr, hy], ?_⟩
    simp only [NamedTuple.getattr]
    rw [lookup_zip_map names _ hn]
    simp [sel, hy]
  · rw [List.forall₂_map_right_iff, List.forall₂_same]
    intro m hm
    rw [List.forall₂_map_right_iff, List.forall₂_same]
    intro row hrow n hn
    obtain ⟨y, hy⟩ := lookup_zip_isSome nt.fields row (h.cols m hm row hrow) (h3 n hn)
    rw [lookup_zip_map names _ hn, hy]
    simp [sel, hy]

/-- Subsetting twice is subsetting once (same result or same error), for every second list drawn from the first. -/
theorem C66_twice {d d₁ : SSPData} {nt : NamedTuple} {lum : List (List (List ℝ))} (h : HasLines d nt lum)
    {names₁ names₂ : List Str} (h1 : get_subset_emline_data d names₁ = .ok d₁) (h2 : ∀ n ∈ names₂, n ∈ names₁) :
    get_subset_emline_data d₁ names₂ = get_subset_emline_data d names₂ := by
  obtain ⟨nt', lum', hl, hf, -⟩ := C66_aligned h h1
  obtain ⟨h1a, h1b, h1c⟩ := (C66_succeeds_iff h names₁).1 ⟨d₁, h1⟩
  rw [subset_eq hl (by rw [hf]; exact h2), subset_eq h (fun n hn => h1c n (h2 n hn))]
  rw [subset_eq h h1c, if_neg h1a, if_pos h1b] at h1
  have e : ∀ row : List ℝ, names₂.map (sel names₁ (names₁.map (sel nt.fields row))) = names₂.map (sel nt.fields row) := by
    intro row
    apply List.map_congr_left
    intro n hn
    rw [sel, lookup_zip_map names₁ _ (h2 n hn)]; rfl
  cases h1
  have hw := hl.hwave
  have hlum := hl.hlum
  simp only [Option.some.injEq] at hw hlum
  subst hw hlum
  split_ifs with ha hb
  · rfl
  · simp only [List.map_map, Except.ok.injEq, SSPData.mk.injEq, Option.some.injEq, NamedTuple.mk.injEq, true_and]
    refine ⟨e nt.values, ?_⟩
    apply List.map_congr_left
    intro m _
    simp only [Function.comp_apply, List.map_map]
    apply List.map_congr_left
    intro row _
    exact e row
  · rfl

/-- Asking for all lines in order changes nothing. -/
theorem C66_all {d : SSPData} {nt : NamedTuple} {lum : List (List (List ℝ))} (h : HasLines d nt lum)
    (hne : nt.fields ≠ []) : get_subset_emline_data d nt.fields = .ok d := by
  rw [subset_eq h (fun _ hn => hn), if_neg hne, if_pos h.wf.nodup]
  have e : ∀ row : List ℝ, row.length = nt.fields.length → nt.fields.map (sel nt.fields row) = row := by
    intro row hrow
    have := map_lookup_self nt.fields row h.wf.nodup hrow
    have h3 := this.imp (fun n x (hx : _ = some x) => (by simp [sel, hx] : sel nt.fields row n = x))
    rw [← List.forall₂_map_left_iff (f := sel nt.fields row) (R := Eq)] at h3
    exact List.forall₂_eq_eq_eq ▸ h3
  have e2 : lum.map (List.map fun row => nt.fields.map (sel nt.fields row)) = lum := by
    conv_rhs => rw [← List.map_id lum]
    apply List.map_congr_left
    intro m hm
    conv_rhs => rw [id, ← List.map_id m]
    apply List.map_congr_left
    intro row hrow
    exact e row (h.cols m hm row hrow)
  rw [e2, e nt.values h.wf.len, ← h.hwave, ← h.hlum]

/-- Data with three lines meet the hypotheses. -/
example : HasLines ⟨[-2], [0], [1, 2], [[[1, 2]]], some ⟨[chars! "Ba_alpha_6563", chars! "O_III_5007", chars! "N_II_6584"],
    [6564.6, 5008.2, 6585.3]⟩, some [[[10, 20, 30]]]⟩ ⟨[chars! "Ba_alpha_6563", chars! "O_III_5007", chars! "N_II_6584"],
    [6564.6, 5008.2, 6585.3]⟩ [[[10, 20, 30]]] := by
  refine ⟨rfl, rfl, ⟨?_, by decide, rfl⟩, ?_⟩
  · intro f hf
    simp only [List.mem_cons, List.not_mem_nil, or_false] at hf
    rcases hf with rfl | rfl | rfl <;> rfl
  · intro m hm row hrow
    simp only [List.mem_singleton] at hm; subst hm
    simp only [List.mem_singleton] at hrow; subst hrow; rfl

end C66

section CaseLines
open LoadEmlineInfo
/-- `C65_contents` applied to a table with a repeated name -/
example := C65_contents (float := fun s => Except.ok s.length) (contents := chars! "1,a.b\n22,c\r\n333,[a]p-\n4444,c")
  (d := [(chars! "apb", 1), (chars! "c", 4), (chars! "ap_", 3)]) (waves := [1, 2, 3, 4]) (by decide)
/-- `C65_rejects` applied to a table with a trailing blank line -/
example := C65_rejects (float := fun s => Except.ok s.length) (contents := chars! "1,a\n\n") (raw := chars! "\n") (by decide) (by decide)
/-- `C65_only_valueError` applied to a `float` that only reads digits -/
example := C65_only_valueError (F := ℕ) (float := fun s => if s.all Char.isDigit then .ok s.length else .error .valueError)
  (by intro s e h; split_ifs at h; cases h; rfl) (contents := chars! "1x,a") (e := .valueError) (by decide)

variable [XID]
/-- three lines -/
noncomputable def caseNt : NamedTuple := ⟨[chars! "Ba_alpha_6563", chars! "O_III_5007", chars! "N_II_6584"], [6564.6, 5008.2, 6585.3]⟩
/-- one population with three lines -/
noncomputable def caseSsp : SSPData := ⟨[-2], [0], [1, 2], [[[1, 2]]], some caseNt, some [[[10, 20, 30]]]⟩
theorem case_hasLines : HasLines caseSsp caseNt [[[10, 20, 30]]] := by
  refine ⟨rfl, rfl, ⟨?_, by unfold caseNt; decide, rfl⟩, ?_⟩
  · intro f hf
    simp only [caseNt, List.mem_cons, List.not_mem_nil, or_false] at hf
    rcases hf with rfl | rfl | rfl <;> rfl
  · intro m hm row hrow
    simp only [List.mem_singleton] at hm; subst hm
    simp only [List.mem_singleton] at hrow; subst hrow; rfl
theorem case_subset_ok : ∃ r, get_subset_emline_data caseSsp [chars! "N_II_6584", chars! "O_III_5007"] = .ok r :=
  (C66_succeeds_iff case_hasLines _).2 ⟨by decide, by decide, by unfold caseNt; decide⟩
/-- `C66_errors` applied to three lines -/
example := (C66_errors case_hasLines [chars! "O_III_5007", chars! "xx"]).1 ⟨chars! "xx", by decide, by unfold caseNt; decide⟩
/-- `C66_no_lines` applied to a population without lines -/
example := C66_no_lines (d := { caseSsp with ssp_emline_wave := none }) rfl (names := [chars! "O_III_5007"]) (by decide)
/-- `C66_aligned` applied to a selection of two of three lines in another order -/
example := C66_aligned case_hasLines case_subset_ok.choose_spec
/-- `C66_twice` applied to a selection from a selection -/
example := C66_twice case_hasLines case_subset_ok.choose_spec (names₂ := [chars! "O_III_5007"]) (by decide)
/-- `C66_all` applied to three lines -/
example := C66_all case_hasLines (by unfold caseNt; decide)
end CaseLines

end Dsps.Props
