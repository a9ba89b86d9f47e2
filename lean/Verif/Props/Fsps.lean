import Verif.Props.EmLines
import Verif.Model.EmlinesInfo
import Mathlib.Tactic
import Verif.Cases

/-! C71, C77: retrieval from FSPS and the shipped reference table of emission lines. -/
namespace Dsps.Props
open Py Dsps.DataDefaults Dsps.Lemmas Dsps.RetrieveFsps

/-! ### C77: the shipped table -/

theorem universalNewlines_id {s : Str} (h : '\r' ∉ s) : universalNewlines s = s := by
  induction s with
  | nil => rfl
  | cons c s ih =>
    have h1 : c ≠ '\r' := fun e => h (by simp [e])
    have h2 : '\r' ∉ s := fun e => h (by simp [e])
    rw [universalNewlines.eq_def]
    split
    · rename_i h; cases h
    · rename_i h'; cases h'; exact absurd rfl h1
    · rename_i h'; cases h'; exact absurd rfl h1
    · rename_i h'; cases h'; rw [ih h2]

theorem fileLines_go_append {l : Str} (h : '\n' ∉ l) (s : Str) :
    fileLines.go (l ++ '\n' :: s) = (l ++ ['\n']) :: fileLines.go s := by
  induction l with
  | nil => simp [fileLines.go]
  | cons c l ih =>
    have h1 : c ≠ '\n' := fun e => h (by simp [e])
    have h2 : '\n' ∉ l := fun e => h (by simp [e])
    rw [List.cons_append, fileLines.go, if_neg h1, ih h2]; rfl

theorem fileLines_join {ls : List Str} (h : ∀ l ∈ ls, '\n' ∉ l ∧ '\r' ∉ l) :
    fileLines (ls.map fun l => l ++ ['\n']).flatten = ls.map fun l => l ++ ['\n'] := by
  have hr : '\r' ∉ (ls.map fun l => l ++ ['\n']).flatten := by
    intro hm
    obtain ⟨l', h1, h2⟩ := List.mem_flatten.1 hm
    obtain ⟨l, hl, rfl⟩ := List.mem_map.1 h1
    rcases List.mem_append.1 h2 with h2 | h2
    · exact (h l hl).2 h2
    · simp at h2
  unfold fileLines
  rw [universalNewlines_id hr]
  clear hr
  induction ls with
  | nil => rfl
  | cons l ls ih =>
    rw [List.map_cons, List.flatten_cons, List.append_assoc, List.singleton_append, fileLines_go_append (h l (by simp)).1,
      ih fun l hl => h l (by simp [hl])]

/-- The table as the shipped file spells it out: exact wavelengths and raw names. -/
def shippedTable : List (ℚ × Str) :=
  EmlinesInfo.lines.filterMap fun l => match (split l ',') with
    | [w, n] => match parseDecimal w with
      | .ok q => some (q, n)
      | .error _ => none
    | _ => none

set_option maxRecDepth 100000 in
theorem lines_no_newline : ∀ l ∈ EmlinesInfo.lines, '\n' ∉ l ∧ '\r' ∉ l := by decide +kernel

theorem shipped_fileLines : fileLines EmlinesInfo.contents = EmlinesInfo.lines.map fun l => l ++ ['\n'] :=
  fileLines_join lines_no_newline

/-- The reader used by the FSPS retrieval accepts the shipped file and returns 166 wavelengths and names, line by line. -/
theorem C77_reader_accepts : get_fsps_emline_info parseDecimal EmlinesInfo.contents =
    .ok (shippedTable.map Prod.fst, shippedTable.map Prod.snd) ∧ shippedTable.length = 166 := by
  unfold get_fsps_emline_info
  rw [shipped_fileLines]
  decide +kernel

/-- The public reader accepts it too, and gives the same lines under the cleaned names. -/
theorem C77_public_reader_accepts : LoadEmlineInfo.read_emlines_info_fsps parseDecimal EmlinesInfo.contents =
    .ok (shippedTable.map fun r => (RetrieveFsps.sanitize r.2, r.1), shippedTable.map Prod.fst) := by
  unfold LoadEmlineInfo.read_emlines_info_fsps
  rw [shipped_fileLines]
  decide +kernel

theorem shipped_names_ascii : ∀ r ∈ shippedTable, (RetrieveFsps.sanitize r.2).all isAscii = true := by decide +kernel

/-- an ASCII field name is one whatever the Unicode tables say -/
theorem isFieldName_ascii [XID] {s : Str} (ha : s.all isAscii = true)
    (h : @isFieldName ⟨fun _ => false, fun _ => false⟩ s = true) : isFieldName s = true := by
  unfold isFieldName at h ⊢
  simp only [Bool.and_eq_true] at h ⊢
  refine ⟨⟨?_, h.1.2⟩, h.2⟩
  have h1 := h.1.1
  cases s with
  | nil => exact h1
  | cons c cs =>
    simp only [List.all_cons, Bool.and_eq_true, List.all_eq_true] at ha
    simp only [isIdentifier, Bool.and_eq_true, List.all_eq_true, idStart, ha.1, if_true] at h1 ⊢
    refine ⟨h1.1, fun x hx => ?_⟩
    have := h1.2 x hx
    simp only [idCont, ha.2 x hx, if_true] at this ⊢
    exact this

theorem shipped_names_valid₀ : ∀ r ∈ shippedTable,
    @isFieldName ⟨fun _ => false, fun _ => false⟩ (RetrieveFsps.sanitize r.2) = true := by decide +kernel

/-- The cleaned names of the shipped lines are 166 different valid field names. -/
theorem C77_names_valid [XID] : (∀ r ∈ shippedTable, isFieldName (RetrieveFsps.sanitize r.2) = true) ∧
    (shippedTable.map fun r => RetrieveFsps.sanitize r.2).Nodup :=
  ⟨fun r hr => isFieldName_ascii (shipped_names_ascii r hr) (shipped_names_valid₀ r hr), by decide +kernel⟩

theorem shipped_chain : (shippedTable.map Prod.fst).IsChain fun a b => a * (1 + 21 / 10000000) < b := by decide +kernel

theorem shipped_pos : ∀ r ∈ shippedTable, 0 < r.1 := by decide +kernel

/-- The wavelengths are positive and sorted, consecutive ones differing by more than 2.1 parts per million. -/
theorem C77_wavelengths_separated :
    (∀ r ∈ shippedTable, 0 < r.1) ∧ shippedTable.Pairwise fun a b => a.1 * (1 + 21 / 10000000) < b.1 := by
  refine ⟨shipped_pos, ?_⟩
  have : (shippedTable.map Prod.fst).Pairwise fun a b => 0 < a ∧ 0 < b ∧ a * (1 + 21 / 10000000) < b := by
    haveI : IsTrans ℚ fun a b => 0 < a ∧ 0 < b ∧ a * (1 + 21 / 10000000) < b :=
      ⟨fun a b c h1 h2 => ⟨h1.1, h2.2.1, by nlinarith [h1.2.2, h2.2.2, h1.2.1, h1.1]⟩⟩
    rw [← List.isChain_iff_pairwise]
    have hp : ∀ q ∈ shippedTable.map Prod.fst, 0 < q := by
      intro q hq; obtain ⟨r, hr, rfl⟩ := List.mem_map.1 hq; exact shipped_pos r hr
    exact (List.isChain_iff_forall_rel_of_append_cons_cons.2 fun {a b l₁ l₂} h => by
      have h1 := List.isChain_iff_forall_rel_of_append_cons_cons.1 shipped_chain h
      exact ⟨hp a (by rw [h]; simp), hp b (by rw [h]; simp), h1⟩)
  rw [List.pairwise_map] at this
  exact this.imp fun h => h.2.2

/-- The table as real numbers. -/
noncomputable def shippedRef : List (ℝ × Str) := shippedTable.map fun r => ((r.1 : ℝ), r.2)

/-- Specification: `w` and `r` agree to one part per million of `w`. -/
def Matches (w r : ℝ) : Prop := |r - w| ≤ |w| / 1000000

theorem isClose_iff (r w : ℝ) : IsClose r w ↔ Matches w r := by
  unfold IsClose Matches
  rw [zero_add]
  constructor <;> intro h <;> (have e : (0.000001:ℝ) * |w| = |w| / 1000000 := by ring) <;> linarith

theorem matches_bounds {w r : ℝ} (hr : 0 < r) (h : Matches w r) : |w| ≤ r * (1 + 1.01 / 1000000) ∧ 0 < w := by
  unfold Matches at h
  rcases abs_le.1 h with ⟨h1, h2⟩
  have hw : 0 < w := by
    by_contra hw
    push Not at hw
    rw [abs_of_nonpos hw] at h2
    linarith
  rw [abs_of_pos hw] at h1 h2 ⊢
  refine ⟨?_, hw⟩
  norm_num; linarith

/-- No wavelength whatsoever matches two lines of the shipped table: the matching is never ambiguous. -/
theorem C77_match_unique (w : ℝ) : shippedRef.Pairwise fun a b => ¬ (Matches w a.1 ∧ Matches w b.1) := by
  unfold shippedRef
  rw [List.pairwise_map]
  have h := C77_wavelengths_separated
  refine (List.Pairwise.and_mem.1 h.2).imp ?_
  rintro a b ⟨ha, hb, hab⟩ ⟨h1, h2⟩
  have pa : (0:ℝ) < a.1 := by exact_mod_cast h.1 a ha
  have pb : (0:ℝ) < b.1 := by exact_mod_cast h.1 b hb
  have hab' : (a.1 : ℝ) * (1 + 21 / 10000000) < b.1 := by
    have := (Rat.cast_lt (K := ℝ)).2 hab
    push_cast at this; exact this
  obtain ⟨hw, hpos⟩ := matches_bounds pa h1
  rw [abs_of_pos hpos] at hw
  unfold Matches at h2
  rw [abs_of_pos hpos] at h2
  have := (abs_le.1 h2).2
  norm_num at hw
  nlinarith

/-! ### C71 -/
section C71
variable [XID] {κ : Type} {ref : List (ℝ × Str)}

open Classical in
/-- A wavelength that matches exactly one reference line gets that line's name, any other wavelength the empty name. -/
theorem C71_match_spec (ref : List (ℝ × Str)) (w : ℝ) :
    (∀ l₁ r l₂, ref = l₁ ++ r :: l₂ → Matches w r.1 → (∀ r' ∈ l₁ ++ l₂, ¬ Matches w r'.1) →
      get_matched_emline_name ref w = r.2) ∧
    ((¬ ∃ l₁ r l₂, ref = l₁ ++ r :: l₂ ∧ Matches w r.1 ∧ ∀ r' ∈ l₁ ++ l₂, ¬ Matches w r'.1) →
      get_matched_emline_name ref w = []) := by
  have hf : ∀ l : List (ℝ × Str), (∀ r' ∈ l, ¬ Matches w r'.1) → l.filter (fun r => IsClose r.1 w) = [] := by
    intro l h
    rw [List.filter_eq_nil_iff]
    intro a ha; simp only [decide_eq_true_eq, isClose_iff]; exact h a ha
  constructor
  · rintro l₁ r l₂ rfl hr ho
    unfold get_matched_emline_name
    simp only [List.filter_append, List.filter_cons, isClose_iff, hr, decide_true, if_true]
    simp only [← isClose_iff]
    rw [hf l₁ fun r' h => ho r' (by simp [h]), hf l₂ fun r' h => ho r' (by simp [h])]
    rfl
  · intro h
    unfold get_matched_emline_name
    simp only
    split
    · rename_i r hr
      exfalso; apply h
      have hm : r ∈ ref.filter (fun r => IsClose r.1 w) := by rw [hr]; simp
      have hm' := List.mem_filter.1 hm
      obtain ⟨l₁, l₂, e⟩ := List.append_of_mem hm'.1
      have hrw : Matches w r.1 := by simpa [isClose_iff] using hm'.2
      refine ⟨l₁, r, l₂, e, hrw, ?_⟩
      rw [e, List.filter_append, List.filter_cons, if_pos (by simpa [isClose_iff] using hrw)] at hr
      have hlen := congrArg List.length hr
      simp only [List.length_append, List.length_cons, List.length_nil] at hlen
      have h1 : (l₁.filter fun r => IsClose r.1 w) = [] := List.length_eq_zero_iff.1 (by omega)
      have h2 : (l₂.filter fun r => IsClose r.1 w) = [] := List.length_eq_zero_iff.1 (by omega)
      rw [List.filter_eq_nil_iff] at h1 h2
      intro r' hr'
      rcases List.mem_append.1 hr' with hr' | hr'
      · have := h1 r' hr'; simpa [isClose_iff] using this
      · have := h2 r' hr'; simpa [isClose_iff] using this
    · rfl

/-- exactly one reference line matches -/
def UniquelyMatched (ref : List (ℝ × Str)) (w : ℝ) : Prop :=
  ∃ l₁ r l₂, ref = l₁ ++ r :: l₂ ∧ Matches w r.1 ∧ ∀ r' ∈ l₁ ++ l₂, ¬ Matches w r'.1

theorem not_fieldName_nil : isFieldName (RetrieveFsps.sanitize []) = false := rfl

/-- If some FSPS line matches no reference line, or several, the name table is refused with ValueError. -/
theorem C71_unmatched_raises {waves : List ℝ} {w : ℝ} (hw : w ∈ waves) (h : ¬ UniquelyMatched ref w) :
    get_emline_wave_namedtuple ref waves = .error .valueError := by
  unfold get_emline_wave_namedtuple
  simp only [namedtupleType]
  have : (((waves.map (get_matched_emline_name ref)).map RetrieveFsps.sanitize).all isFieldName &&
      decide ((waves.map (get_matched_emline_name ref)).map RetrieveFsps.sanitize).Nodup) = false := by
    rw [Bool.and_eq_false_iff]; left
    rw [List.all_eq_false]
    refine ⟨RetrieveFsps.sanitize [], ?_, by rw [not_fieldName_nil]; simp⟩
    rw [List.map_map, List.mem_map]
    exact ⟨w, hw, by rw [Function.comp_apply, (C71_match_spec ref w).2 h]⟩
  rw [this]; rfl

/-- When it succeeds, every line is uniquely matched, its field is the cleaned reference name, its value the FSPS wavelength. -/
theorem C71_names {waves : List ℝ} {nt : NamedTuple} (h : get_emline_wave_namedtuple ref waves = .ok nt) :
    nt.WF ∧ nt.values = waves ∧ (∀ w ∈ waves, UniquelyMatched ref w) ∧
      List.Forall₂ (fun w f => ∃ r ∈ ref, Matches w r.1 ∧ f = r.2.flatMap cleanChar) waves nt.fields := by
  have hu : ∀ w ∈ waves, UniquelyMatched ref w := by
    intro w hw; by_contra hn
    rw [C71_unmatched_raises hw hn] at h; cases h
  unfold get_emline_wave_namedtuple at h
  simp only [namedtupleType] at h
  split_ifs at h with hv
  · simp only [bind, Except.bind, construct] at h
    split_ifs at h with hl
    cases h
    simp only [Bool.and_eq_true, List.all_eq_true, decide_eq_true_eq] at hv
    refine ⟨⟨hv.1, hv.2, hl⟩, rfl, hu, ?_⟩
    rw [List.map_map, List.forall₂_map_right_iff, List.forall₂_same]
    intro w hw
    obtain ⟨l₁, r, l₂, e, hm, ho⟩ := hu w hw
    refine ⟨r, by rw [e]; simp, hm, ?_⟩
    rw [Function.comp_apply, (C71_match_spec ref w).1 l₁ r l₂ e hm ho, (C64_sanitize_spec _).2]
  · cases h

/-- With the shipped table: success iff every FSPS wavelength matches some line and no two match the same line. -/
theorem C71_shipped_succeeds_iff (waves : List ℝ) :
    (∃ nt, get_emline_wave_namedtuple shippedRef waves = .ok nt) ↔
      (∀ w ∈ waves, ∃ r ∈ shippedRef, Matches w r.1) ∧
      waves.Pairwise fun w w' => ¬ ∃ r ∈ shippedRef, Matches w r.1 ∧ Matches w' r.1 := by
  have huniq : ∀ w, (∃ r ∈ shippedRef, Matches w r.1) → UniquelyMatched shippedRef w := by
    rintro w ⟨r, hr, hm⟩
    obtain ⟨l₁, l₂, e⟩ := List.append_of_mem hr
    refine ⟨l₁, r, l₂, e, hm, ?_⟩
    have hp := C77_match_unique w
    rw [e, List.pairwise_append, List.pairwise_cons] at hp
    intro r' hr' hm'
    rcases List.mem_append.1 hr' with h | h
    · exact hp.2.2 r' h r (by simp) ⟨hm', hm⟩
    · exact hp.2.1.1 r' h ⟨hm, hm'⟩
  have hname : ∀ w r, r ∈ shippedRef → Matches w r.1 → get_matched_emline_name shippedRef w = r.2 := by
    intro w r hr hm
    obtain ⟨l₁, r', l₂, e, hm', ho⟩ := huniq w ⟨r, hr, hm⟩
    have : r = r' := by
      rw [e] at hr
      rcases List.mem_append.1 hr with h | h
      · exact absurd hm (ho r (by simp [h]))
      · rcases List.mem_cons.1 h with h | h
        · exact h
        · exact absurd hm (ho r (by simp [h]))
    rw [this]; exact (C71_match_spec shippedRef w).1 l₁ r' l₂ e hm' ho
  have hvalid : ∀ r ∈ shippedRef, isFieldName (RetrieveFsps.sanitize r.2) = true := by
    intro r hr
    obtain ⟨r', hr', rfl⟩ := List.mem_map.1 hr
    exact C77_names_valid.1 r' hr'
  have hinj : shippedRef.Pairwise fun a b => RetrieveFsps.sanitize a.2 ≠ RetrieveFsps.sanitize b.2 := by
    unfold shippedRef
    rw [List.pairwise_map]
    have := C77_names_valid.2
    rw [List.Nodup, List.pairwise_map] at this
    exact this
  constructor
  · rintro ⟨nt, h⟩
    obtain ⟨hwf, -, hu, -⟩ := C71_names h
    have hex : ∀ w ∈ waves, ∃ r ∈ shippedRef, Matches w r.1 := by
      intro w hw
      obtain ⟨l₁, r, l₂, e, hm, -⟩ := hu w hw
      exact ⟨r, by rw [e]; simp, hm⟩
    refine ⟨hex, ?_⟩
    unfold get_emline_wave_namedtuple at h
    simp only [namedtupleType] at h
    split_ifs at h with hv
    · simp only [Bool.and_eq_true, decide_eq_true_eq] at hv
      have hnd := hv.2
      rw [List.map_map, List.Nodup, List.pairwise_map] at hnd
      refine hnd.imp ?_
      rintro w w' hne ⟨r, hr, h1, h2⟩
      apply hne
      rw [Function.comp_apply, Function.comp_apply, hname w r hr h1, hname w' r hr h2]
    · cases h
  · rintro ⟨hex, hpw⟩
    unfold get_emline_wave_namedtuple
    simp only [namedtupleType]
    have hv : (((waves.map (get_matched_emline_name shippedRef)).map RetrieveFsps.sanitize).all isFieldName &&
        decide ((waves.map (get_matched_emline_name shippedRef)).map RetrieveFsps.sanitize).Nodup) = true := by
      simp only [Bool.and_eq_true, List.all_eq_true, decide_eq_true_eq]
      rw [List.map_map]
      constructor
      · intro f hf
        obtain ⟨w, hw, rfl⟩ := List.mem_map.1 hf
        obtain ⟨r, hr, hm⟩ := hex w hw
        rw [Function.comp_apply, hname w r hr hm]; exact hvalid r hr
      · rw [List.Nodup, List.pairwise_map]
        refine (List.Pairwise.and_mem.1 hpw).imp ?_
        rintro w w' ⟨hw, hw', hno⟩ heq
        obtain ⟨r, hr, hm⟩ := hex w hw
        obtain ⟨r', hr', hm'⟩ := hex w' hw'
        rw [Function.comp_apply, Function.comp_apply, hname w r hr hm, hname w' r' hr' hm'] at heq
        by_cases e : r = r'
        · subst e; exact hno ⟨r, hr, hm, hm'⟩
        · haveI : Std.Symm fun a b : ℝ × Str => RetrieveFsps.sanitize a.2 ≠ RetrieveFsps.sanitize b.2 := ⟨fun _ _ h => h.symm⟩
          exact (hinj.forall hr hr' e) heq
    rw [hv]
    simp only [if_true, bind, Except.bind, construct, List.length_map]
    exact ⟨_, rfl⟩

/-- the population asked for in iteration `i` -/
abbrev pop (fsps : Fsps κ) (neb : Bool) (kw : κ) (i : ℕ) : StellarPopulation := fsps (some i) (some neb) kw

theorem loop_flux (fsps : Fsps κ) (neb : Bool) (kw : κ) (l : List ℕ) (s s' : LoopState)
    (h : l.foldlM (loop_body fsps neb kw) s = .ok s') :
    s'.spectrum_collector = s.spectrum_collector ++ l.map (fun i => (pop fsps neb kw i).spectrum.2) ∧
    s'.wave = (match l.getLast? with | some i => some (pop fsps neb kw i).spectrum.1 | none => s.wave) ∧
    s'.sp = (match l.getLast? with | some i => pop fsps neb kw i | none => s.sp) ∧
    (∀ c, s.emline_collector = some c →
      s'.emline_collector = some (c ++ l.filterMap fun i => (pop fsps neb kw i).emline_luminosity)) ∧
    (s.emline_collector = none → s'.emline_collector = none ∧ ∀ i ∈ l, (pop fsps neb kw i).emline_luminosity = none) := by
  induction l generalizing s with
  | nil =>
    cases h
    refine ⟨by simp, rfl, rfl, by simp, by simp⟩
  | cons i l ih =>
    rw [List.foldlM_cons] at h
    cases hb : loop_body fsps neb kw s i with
    | error e => rw [hb] at h; cases h
    | ok s₁ =>
      rw [hb] at h
      obtain ⟨h1, h2, h3, h4, h5⟩ := ih s₁ h
      unfold loop_body at hb
      simp only at hb
      have hs : s₁.sp = pop fsps neb kw i ∧ s₁.wave = some (pop fsps neb kw i).spectrum.1 ∧
          s₁.spectrum_collector = s.spectrum_collector ++ [(pop fsps neb kw i).spectrum.2] ∧
          (∀ c, s.emline_collector = some c → s₁.emline_collector = some (c ++ (pop fsps neb kw i).emline_luminosity.toList)) ∧
          (s.emline_collector = none → s₁.emline_collector = none ∧ (pop fsps neb kw i).emline_luminosity = none) := by
        cases hl : (fsps (some i) (some neb) kw).emline_luminosity with
        | none =>
          rw [hl] at hb; cases hb
          refine ⟨rfl, rfl, rfl, ?_, ?_⟩
          · intro c hc; simp [pop, hl, hc]
          · intro hc; exact ⟨hc, rfl⟩
        | some lum =>
          rw [hl] at hb
          cases hc : s.emline_collector with
          | none => simp only [hc] at hb; cases hb
          | some c =>
            simp only [hc] at hb; cases hb
            refine ⟨rfl, rfl, rfl, ?_, ?_⟩
            · rintro c' hc'; cases hc'; simp [pop, hl]
            · intro h; cases h
      obtain ⟨a1, a2, a3, a4, a5⟩ := hs
      refine ⟨?_, ?_, ?_, ?_, ?_⟩
      · rw [h1, a3]; simp
      · rw [h2]
        cases hlast : l.getLast? with
        | none =>
          have : l = [] := List.getLast?_eq_none_iff.1 hlast
          subst this; simp [a2]
        | some j =>
          have : (i :: l).getLast? = some j := by
            rw [List.getLast?_cons, hlast]; rfl
          rw [this]
      · rw [h3]
        cases hlast : l.getLast? with
        | none =>
          have : l = [] := List.getLast?_eq_none_iff.1 hlast
          subst this; simp [a1]
        | some j =>
          have : (i :: l).getLast? = some j := by
            rw [List.getLast?_cons, hlast]; rfl
          rw [this]
      · intro c hc
        rw [h4 _ (a4 c hc)]
        cases hl : (pop fsps neb kw i).emline_luminosity <;> simp [hl]
      · intro hc
        obtain ⟨b1, b2⟩ := a5 hc
        obtain ⟨c1, c2⟩ := h5 b1
        refine ⟨c1, fun j hj => ?_⟩
        rcases List.mem_cons.1 hj with rfl | hj
        · exact b2
        · exact c2 j hj

theorem stack3_ok {ms r : List (List (List ℝ))} (h : stack3 ms = .ok r) : r = ms := by
  unfold stack3 at h
  cases ms with
  | nil => cases h; rfl
  | cons m rest =>
    simp only at h
    split_ifs at h
    cases h; rfl

theorem range'_last (n : ℕ) : (List.range' 1 (n + 1)).getLast? = some (n + 1) := by
  rw [List.range'_concat]; simp [Nat.add_comm]

theorem range'_map {α : Type} (n : ℕ) (f : ℕ → α) : (List.range' 1 n).map f = (List.range n).map fun i => f (i + 1) := by
  rw [List.range'_eq_map_range, List.map_map]
  apply List.map_congr_left
  intro i _; simp [Nat.add_comm]

/-- Everything that is true of a successful retrieval: one metallicity per entry of `zlegend`, `flux[i]` computed with
`zmet = i+1` and the caller's `add_neb_emission` and keyword arguments, the ages of the first population, and the
wavelengths of the last one. -/
theorem C71_pairing {fsps : Fsps κ} {neb : Bool} {kw : κ} {r : SSPData}
    (h : retrieve_ssp_data_from_fsps ref fsps neb kw = .ok r) :
    r.ssp_lgmet = (fsps none none kw).zlegend.map (Real.logb 10) ∧
    r.ssp_lg_age_gyr = (fsps none none kw).log_age.map (fun a => a - 9) ∧
    r.ssp_flux = (List.range (fsps none none kw).zlegend.length).map (fun i => (fsps (some (i + 1)) (some neb) kw).spectrum.2) ∧
    (fsps none none kw).zlegend ≠ [] ∧
    r.ssp_wave = (fsps (some (fsps none none kw).zlegend.length) (some neb) kw).spectrum.1 := by
  unfold retrieve_ssp_data_from_fsps at h
  simp only [List.length_map] at h
  generalize hn : (fsps none none kw).zlegend.length = n at h ⊢
  generalize hst : (⟨fsps none none kw, none, [], if (fsps none none kw).emline_luminosity.isSome then some [] else none⟩ :
    LoopState) = s₀ at h
  cases hl : (List.range' 1 n).foldlM (loop_body fsps neb kw) s₀ with
  | error e => rw [hl] at h; cases h
  | ok s =>
    rw [hl] at h
    obtain ⟨h1, h2, h3, -, -⟩ := loop_flux fsps neb kw _ _ _ hl
    have hspec : s₀.spectrum_collector = [] ∧ s₀.wave = none := by rw [← hst]; exact ⟨rfl, rfl⟩
    rw [hspec.1, List.nil_append] at h1
    cases n with
    | zero =>
      exfalso
      have : s.wave = none := by rw [h2]; exact hspec.2
      simp only [bind, Except.bind, this] at h
      cases h
    | succ n =>
      rw [range'_last] at h2 h3
      simp only at h2 h3
      simp only [bind, Except.bind, h2, pure, Except.pure] at h
      cases hf : stack3 s.spectrum_collector with
      | error e => rw [hf] at h; cases h
      | ok flux =>
        have hflux := stack3_ok hf
        rw [hf] at h
        simp only at h
        have hne : (fsps none none kw).zlegend ≠ [] := by
          intro e; rw [e] at hn; simp at hn
        split_ifs at h with hem
        · split at h
          · cases h
          · cases hc : s.emline_collector with
            | none => rw [hc] at h; cases h
            | some c =>
              rw [hc] at h
              cases hs3 : stack3 c with
              | error e => simp only [hs3] at h; cases h
              | ok lum =>
                simp only [hs3] at h
                cases h
                exact ⟨rfl, rfl, by rw [hflux, h1, range'_map], hne, rfl⟩
        · cases h
          exact ⟨rfl, rfl, by rw [hflux, h1, range'_map], hne, rfl⟩

/-- The installed FSPS either provides line luminosities for every population, or for none. -/
def Uniform (fsps : Fsps κ) (b : Bool) : Prop := ∀ z neb kw, (fsps z neb kw).emline_luminosity.isSome = b

/-- Emission-line data are attached iff FSPS provides them; luminosity `i` belongs to `zmet = i+1`, and the names and wavelengths
are those of `C71_names` for FSPS's line list. -/
theorem C71_emlines {fsps : Fsps κ} {neb : Bool} {kw : κ} {b : Bool} (hb : Uniform fsps b) {r : SSPData}
    (h : retrieve_ssp_data_from_fsps ref fsps neb kw = .ok r) :
    (b = false → r.ssp_emline_wave = none ∧ r.ssp_emline_luminosity = none) ∧
    (b = true → ∃ nt lum, r.ssp_emline_wave = some nt ∧ r.ssp_emline_luminosity = some lum ∧
      get_emline_wave_namedtuple ref (fsps (some (fsps none none kw).zlegend.length) (some neb) kw).emline_wavelengths = .ok nt ∧
      lum.length = (fsps none none kw).zlegend.length ∧
      ∀ i, i < (fsps none none kw).zlegend.length → lum[i]? = (fsps (some (i + 1)) (some neb) kw).emline_luminosity) := by
  unfold retrieve_ssp_data_from_fsps at h
  simp only [List.length_map] at h
  generalize hn : (fsps none none kw).zlegend.length = n at h ⊢
  generalize hst : (⟨fsps none none kw, none, [], if (fsps none none kw).emline_luminosity.isSome then some [] else none⟩ :
    LoopState) = s₀ at h
  cases hl : (List.range' 1 n).foldlM (loop_body fsps neb kw) s₀ with
  | error e => rw [hl] at h; cases h
  | ok s =>
    rw [hl] at h
    obtain ⟨h1, h2, h3, h4, -⟩ := loop_flux fsps neb kw _ _ _ hl
    have hspec : s₀.wave = none ∧ s₀.emline_collector = if b then some [] else none := by
      rw [← hst]; exact ⟨rfl, by simp only [hb none none kw]⟩
    cases n with
    | zero =>
      exfalso
      have : s.wave = none := by rw [h2]; exact hspec.1
      simp only [bind, Except.bind, this] at h
      cases h
    | succ n =>
      rw [range'_last] at h2 h3
      simp only at h2 h3
      simp only [bind, Except.bind, h2, pure, Except.pure] at h
      cases hf : stack3 s.spectrum_collector with
      | error e => rw [hf] at h; cases h
      | ok flux =>
        rw [hf] at h
        simp only at h
        have hsp : s.sp.emline_luminosity.isSome = b := by rw [h3]; exact hb _ _ _
        cases b with
        | false =>
          rw [hsp] at h
          simp only [Bool.false_eq_true, if_false] at h
          cases h
          exact ⟨fun _ => ⟨rfl, rfl⟩, fun h => by cases h⟩
        | true =>
          rw [hsp] at h
          simp only [if_true] at h
          have hcol := h4 [] (by rw [hspec.2]; rfl)
          rw [List.nil_append] at hcol
          refine ⟨fun h => (by cases h), fun _ => ?_⟩
          rw [h3, hcol] at h
          cases hnt : get_emline_wave_namedtuple ref (pop fsps neb kw (n + 1)).emline_wavelengths with
          | error e => rw [hnt] at h; cases h
          | ok nt =>
            rw [hnt] at h
            simp only at h
            cases hs3 : stack3 ((List.range' 1 (n + 1)).filterMap fun i => (pop fsps neb kw i).emline_luminosity) with
            | error e => rw [hs3] at h; cases h
            | ok lum =>
              rw [hs3] at h
              have hlum := stack3_ok hs3
              cases h
              have hmap : ((List.range' 1 (n + 1)).filterMap fun i => (pop fsps neb kw i).emline_luminosity) =
                  (List.range (n + 1)).map fun i => ((pop fsps neb kw (i + 1)).emline_luminosity).getD [] := by
                rw [← range'_map (n + 1) fun i => ((pop fsps neb kw i).emline_luminosity).getD [], ← List.filterMap_eq_map]
                apply List.filterMap_congr
                intro i _
                have := hb (some i) (some neb) kw
                cases hx : (pop fsps neb kw i).emline_luminosity with
                | none => rw [show (fsps (some i) (some neb) kw).emline_luminosity = none from hx] at this; cases this
                | some x => simp [hx]
              refine ⟨nt, lum, rfl, rfl, rfl, ?_, ?_⟩
              · rw [hlum, hmap]; simp
              · intro i hi
                rw [hlum, hmap, List.getElem?_map, List.getElem?_range hi]
                have := hb (some (i + 1)) (some neb) kw
                cases hx : (pop fsps neb kw (i + 1)).emline_luminosity with
                | none => rw [show (fsps (some (i + 1)) (some neb) kw).emline_luminosity = none from hx] at this; cases this
                | some x => simp [hx]

theorem stack3_iff (ms : List (List (List ℝ))) : (∃ r, stack3 ms = .ok r) ↔ ∀ a ∈ ms, ∀ b ∈ ms, a.map List.length = b.map List.length := by
  unfold stack3
  cases ms with
  | nil => simp
  | cons m rest =>
    simp only
    constructor
    · rintro ⟨r, hr⟩
      split_ifs at hr with h
      have h' : ∀ a ∈ m :: rest, a.map List.length = m.map List.length := by
        intro a ha
        rcases List.mem_cons.1 ha with rfl | ha
        · rfl
        · exact h a ha
      exact fun a ha b hb => (h' a ha).trans (h' b hb).symm
    · intro h
      rw [if_pos fun a ha => h a (List.mem_cons_of_mem _ ha) m List.mem_cons_self]
      exact ⟨_, rfl⟩

theorem loop_ok {fsps : Fsps κ} {b : Bool} (hb : Uniform fsps b) (neb : Bool) (kw : κ) (l : List ℕ) (s : LoopState) (hs : s.emline_collector.isSome = b) :
    ∃ s', l.foldlM (loop_body fsps neb kw) s = .ok s' := by
  induction l generalizing s with
  | nil => exact ⟨s, rfl⟩
  | cons i l ih =>
    rw [List.foldlM_cons]
    have hi := hb (some i) (some neb) kw
    unfold loop_body
    simp only
    cases hl : (fsps (some i) (some neb) kw).emline_luminosity with
    | none => exact ih _ hs
    | some lum =>
      rw [hl] at hi
      cases hc : s.emline_collector with
      | none => rw [hc] at hs; rw [← hs] at hi; cases hi
      | some c => exact ih _ (by rw [← hi]; rfl)

/-- The arrays FSPS returns for all metallicities have the same shape. -/
def SameShapes (N : ℕ) (arr : ℕ → List (List ℝ)) : Prop :=
  ∀ i j, 1 ≤ i → i ≤ N → 1 ≤ j → j ≤ N → (arr i).map List.length = (arr j).map List.length

theorem sameShapes_iff (N : ℕ) (arr : ℕ → List (List ℝ)) :
    (∃ r, stack3 ((List.range N).map fun i => arr (i + 1)) = .ok r) ↔ SameShapes N arr := by
  rw [stack3_iff]
  simp only [List.mem_map, List.mem_range, forall_exists_index, and_imp, forall_apply_eq_imp_iff₂]
  constructor
  · intro h i j hi hi' hj hj'
    have := h (i - 1) (by omega) (j - 1) (by omega)
    rwa [Nat.sub_add_cancel hi, Nat.sub_add_cancel hj] at this
  · exact fun h i hi j hj => h _ _ (by omega) (by omega) (by omega) (by omega)

/-- C71: exactly when the retrieval succeeds: FSPS lists a metallicity, the spectra of all metallicities have the same shape and, if FSPS provides lines, all
of them are matched in the reference table and the luminosities of all metallicities have the same shape.  In every other case it raises. -/
theorem C71_succeeds_iff {fsps : Fsps κ} {neb : Bool} {kw : κ} {b : Bool} (hb : Uniform fsps b) :
    (∃ r, retrieve_ssp_data_from_fsps ref fsps neb kw = .ok r) ↔
      (fsps none none kw).zlegend ≠ [] ∧
      SameShapes (fsps none none kw).zlegend.length (fun i => (fsps (some i) (some neb) kw).spectrum.2) ∧
      (b = true → (∃ nt, get_emline_wave_namedtuple ref (fsps (some (fsps none none kw).zlegend.length) (some neb) kw).emline_wavelengths = .ok nt) ∧
        SameShapes (fsps none none kw).zlegend.length (fun i => ((fsps (some i) (some neb) kw).emline_luminosity).getD [])) := by
  unfold retrieve_ssp_data_from_fsps
  simp only [List.length_map]
  have hz : (fsps none none kw).zlegend ≠ [] ↔ (fsps none none kw).zlegend.length ≠ 0 := by simp
  rw [hz]
  generalize (fsps none none kw).zlegend.length = n
  generalize hst : (⟨fsps none none kw, none, [], if (fsps none none kw).emline_luminosity.isSome then some [] else none⟩ :
    LoopState) = s₀
  have hspec : s₀.wave = none ∧ s₀.spectrum_collector = [] ∧ s₀.emline_collector = if b then some [] else none := by
    rw [← hst]; exact ⟨rfl, rfl, by simp only [hb none none kw]⟩
  obtain ⟨s, hl⟩ := loop_ok hb neb kw (List.range' 1 n) s₀ (by rw [hspec.2.2]; cases b <;> rfl)
  rw [hl]
  obtain ⟨h1, h2, h3, h4, -⟩ := loop_flux fsps neb kw _ _ _ hl
  rw [hspec.2.1, List.nil_append, range'_map] at h1
  cases n with
  | zero =>
    have : s.wave = none := by rw [h2]; exact hspec.1
    simp only [bind, Except.bind, this, ne_eq, not_true_eq_false, false_and, iff_false, not_exists]
    intro r hr; cases hr
  | succ n =>
    rw [range'_last] at h2 h3
    simp only at h2 h3
    have hsp : (pop fsps neb kw (n + 1)).emline_luminosity.isSome = b := hb _ _ _
    simp only [bind, Except.bind, h2, pure, Except.pure, ne_eq, Nat.succ_ne_zero, not_false_eq_true, true_and, h1, h3, hsp]
    rw [← sameShapes_iff, ← sameShapes_iff]
    cases hf : stack3 (List.map (fun i => (pop fsps neb kw (i + 1)).spectrum.2) (List.range (n + 1))) with
    | error e =>
      constructor
      · rintro ⟨r, hr⟩; cases hr
      · rintro ⟨⟨r, hr⟩, -⟩; cases hr
    | ok flux =>
      cases b with
      | false =>
        simp only [Bool.false_eq_true, if_false, false_implies, and_true]
        exact ⟨fun _ => ⟨_, rfl⟩, fun _ => ⟨_, rfl⟩⟩
      | true =>
        simp only [if_true, true_implies]
        have hcol := h4 [] (by rw [hspec.2.2]; rfl)
        have hmap : ((List.range' 1 (n + 1)).filterMap fun i => (pop fsps neb kw i).emline_luminosity) =
            (List.range (n + 1)).map fun i => ((pop fsps neb kw (i + 1)).emline_luminosity).getD [] := by
          rw [← range'_map (n + 1) fun i => ((pop fsps neb kw i).emline_luminosity).getD [], ← List.filterMap_eq_map]
          apply List.filterMap_congr
          intro i _
          have := hb (some i) (some neb) kw
          cases hx : (pop fsps neb kw i).emline_luminosity with
          | none => rw [show (fsps (some i) (some neb) kw).emline_luminosity = none from hx] at this; cases this
          | some x => simp [hx]
        rw [List.nil_append, hmap] at hcol
        rw [hcol]
        cases hnt : get_emline_wave_namedtuple ref (pop fsps neb kw (n + 1)).emline_wavelengths with
        | error e =>
          constructor
          · rintro ⟨r, hr⟩; cases hr
          · rintro ⟨-, ⟨nt, hn⟩, -⟩; cases hn
        | ok nt =>
          simp only
          cases hs3 : stack3 (List.map (fun i => ((pop fsps neb kw (i + 1)).emline_luminosity).getD []) (List.range (n + 1))) with
          | error e =>
            constructor
            · rintro ⟨r, hr⟩; cases hr
            · rintro ⟨-, -, ⟨r, hr⟩⟩; cases hr
          | ok lum => exact ⟨fun _ => ⟨⟨_, rfl⟩, ⟨_, rfl⟩, ⟨_, rfl⟩⟩, fun _ => ⟨_, rfl⟩⟩

/-- If an FSPS line is not uniquely matched in the reference table the retrieval raises ValueError (or fails earlier). -/
theorem C71_unmatched_retrieval_raises {fsps : Fsps κ} {neb : Bool} {kw : κ} (hb : Uniform fsps true) {w : ℝ}
    (hw : w ∈ (fsps (some (fsps none none kw).zlegend.length) (some neb) kw).emline_wavelengths)
    (hu : ¬ UniquelyMatched ref w) : ∃ e, retrieve_ssp_data_from_fsps ref fsps neb kw = .error e := by
  cases h : retrieve_ssp_data_from_fsps ref fsps neb kw with
  | error e => exact ⟨e, rfl⟩
  | ok r =>
    obtain ⟨nt, lum, -, -, hnt, -⟩ := (C71_emlines hb h).2 rfl
    rw [C71_unmatched_raises hw hu] at hnt
    cases hnt

/-- An FSPS that shows the attribute only on the populations built with nebular emission switched on (not on the first object,
which is built without that argument) makes the function fail with NameError: the collector was never created. -/
theorem C71_attribute_appears_late {fsps : Fsps κ} {neb : Bool} {kw : κ} (h0 : (fsps none none kw).emline_luminosity = none)
    (h1 : (fsps (some 1) (some neb) kw).emline_luminosity.isSome) (hz : (fsps none none kw).zlegend ≠ []) :
    retrieve_ssp_data_from_fsps ref fsps neb kw = .error .nameError := by
  unfold retrieve_ssp_data_from_fsps
  simp only [List.length_map, h0]
  obtain ⟨n, hn⟩ : ∃ n, (fsps none none kw).zlegend.length = n + 1 :=
    ⟨_, (Nat.succ_pred_eq_of_pos (List.length_pos_iff.2 hz)).symm⟩
  rw [hn, List.range'_succ, List.foldlM_cons]
  obtain ⟨lum, hlum⟩ := Option.isSome_iff_exists.1 h1
  simp only [loop_body, hlum]
  rfl

/-- A small FSPS (two metallicities, one line of the shipped table) for which the retrieval succeeds. -/
example : ∃ (fsps : Fsps Unit) (r : SSPData), Uniform fsps true ∧
    retrieve_ssp_data_from_fsps [(6564.6, chars! "Ba-alpha 6563")] fsps true () = .ok r ∧
    r.ssp_emline_luminosity = some [[[1]], [[2]]] := by
  refine ⟨fun z _ _ => ⟨[0.01, 0.02], [6], ([1000], [[(z.getD 0 : ℕ)]]), some [[(z.getD 0 : ℕ)]], [6564.6]⟩, ?_⟩
  have hm : get_matched_emline_name [(6564.6, chars! "Ba-alpha 6563")] 6564.6 = chars! "Ba-alpha 6563" :=
    (C71_match_spec _ _).1 [] _ [] rfl (by unfold Matches; simp; positivity) (by simp)
  have hnt : get_emline_wave_namedtuple [(6564.6, chars! "Ba-alpha 6563")] [6564.6] = .ok ⟨[chars! "Ba_alpha_6563"], [6564.6]⟩ := by
    unfold get_emline_wave_namedtuple
    simp only [List.map_cons, List.map_nil, hm]
    rfl
  refine ⟨{ ssp_lgmet := [Real.logb 10 0.01, Real.logb 10 0.02], ssp_lg_age_gyr := [6 - 9], ssp_wave := [1000],
            ssp_flux := [[[(1 : ℕ)]], [[(2 : ℕ)]]], ssp_emline_wave := some ⟨[chars! "Ba_alpha_6563"], [6564.6]⟩,
            ssp_emline_luminosity := some [[[(1 : ℕ)]], [[(2 : ℕ)]]] }, fun _ _ _ => rfl, ?_, by simp⟩
  · unfold retrieve_ssp_data_from_fsps
    simp only [List.length_map, List.length_cons, List.length_nil, bind, Except.bind, loop_body, List.range', List.foldlM,
      Option.isSome_some, if_true, pure, Except.pure, List.nil_append, List.singleton_append, stack3, List.cons_append, hnt]
    rfl

end C71

section CaseFsps
variable [XID]
/-- `C71_unmatched_raises` applied to a wavelength far from the only reference line -/
example := C71_unmatched_raises (ref := [(6564.6, chars! "Ba-alpha 6563")]) (waves := [6564.6, 5000]) (w := 5000) (by simp) (by
  rintro ⟨l₁, r, l₂, e, hm, -⟩
  have : r ∈ [((6564.6:ℝ), chars! "Ba-alpha 6563")] := by rw [e]; simp
  rw [List.mem_singleton] at this
  subst this
  unfold Matches at hm; norm_num [abs_of_pos] at hm)
theorem case_match : get_matched_emline_name [(6564.6, chars! "Ba-alpha 6563")] 6564.6 = chars! "Ba-alpha 6563" :=
  (C71_match_spec _ _).1 [] _ [] rfl (by unfold Matches; simp; positivity) (by simp)
theorem case_nt : get_emline_wave_namedtuple [(6564.6, chars! "Ba-alpha 6563")] [6564.6] = .ok ⟨[chars! "Ba_alpha_6563"], [6564.6]⟩ := by
  unfold get_emline_wave_namedtuple
  simp only [List.map_cons, List.map_nil, case_match]
  rfl
/-- `C71_names` applied to the H-alpha line -/
example := C71_names case_nt
/-- a small FSPS: two metallicities and one line -/
noncomputable def caseFsps : Fsps Unit := fun z _ _ =>
  ⟨[0.01, 0.02], [6], ([1000], [[(z.getD 0 : ℕ)]]), some [[(z.getD 0 : ℕ)]], [6564.6]⟩
theorem case_retrieve : retrieve_ssp_data_from_fsps [(6564.6, chars! "Ba-alpha 6563")] caseFsps true () =
    .ok { ssp_lgmet := [Real.logb 10 0.01, Real.logb 10 0.02], ssp_lg_age_gyr := [6 - 9], ssp_wave := [1000],
          ssp_flux := [[[(1 : ℕ)]], [[(2 : ℕ)]]], ssp_emline_wave := some ⟨[chars! "Ba_alpha_6563"], [6564.6]⟩,
          ssp_emline_luminosity := some [[[(1 : ℕ)]], [[(2 : ℕ)]]] } := by
  unfold retrieve_ssp_data_from_fsps
  simp only [caseFsps, List.length_map, List.length_cons, List.length_nil, bind, Except.bind, loop_body, List.range', List.foldlM,
    Option.isSome_some, if_true, pure, Except.pure, List.nil_append, stack3, List.cons_append, case_nt]
  rfl
/-- `C71_pairing` and `C71_emlines` applied to the small FSPS -/
example := C71_pairing case_retrieve
example := C71_emlines (b := true) (fun _ _ _ => rfl) case_retrieve
example := (C71_succeeds_iff (fsps := caseFsps) (b := true) (fun _ _ _ => rfl)).1 ⟨_, case_retrieve⟩
/-- `C71_unmatched_retrieval_raises` applied to the small FSPS with an empty reference table -/
example := C71_unmatched_retrieval_raises (ref := []) (fsps := caseFsps) (neb := true) (kw := ()) (fun _ _ _ => rfl) (w := 6564.6)
  (by simp [caseFsps]) (by rintro ⟨l₁, r, l₂, e, -⟩; simp at e)
/-- `C71_attribute_appears_late` applied to an FSPS whose first object has no line luminosities -/
example := C71_attribute_appears_late (ref := []) (neb := true) (kw := ())
  (fsps := fun z b kw => if z.isSome then caseFsps z b kw else { caseFsps z b kw with emline_luminosity := none })
  (by simp) (by simp [caseFsps]) (by simp [caseFsps])
end CaseFsps

end Dsps.Props
