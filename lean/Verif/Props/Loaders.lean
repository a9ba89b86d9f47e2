import Verif.Model.LoadSspData
import Verif.Lemmas.PyLemmas
import Verif.Lemmas.Interp
import Mathlib.Tactic
import Verif.Cases

/-! C67, C68, C72: filter-curve loader, file resolution, random filter curves. -/
namespace Dsps.Props
open Py Dsps.DataDefaults Dsps.Lemmas Dsps.LoadFilterData

/-! ### C67 -/

theorem foldl_min_le (l : List ℝ) (x : ℝ) : l.foldl min x ≤ x ∧ ∀ y ∈ l, l.foldl min x ≤ y := by
  induction l generalizing x with
  | nil => simp
  | cons a l ih =>
    rw [List.foldl_cons]
    obtain ⟨h1, h2⟩ := ih (min x a)
    refine ⟨h1.trans (min_le_left _ _), fun y hy => ?_⟩
    rcases List.mem_cons.1 hy with rfl | hy
    · exact h1.trans (min_le_right _ _)
    · exact h2 y hy

theorem foldl_min_mem (l : List ℝ) (x : ℝ) : l.foldl min x ∈ x :: l := by
  induction l generalizing x with
  | nil => simp
  | cons a l ih =>
    rw [List.foldl_cons]
    rcases List.mem_cons.1 (ih (min x a)) with h | h
    · rw [h]; rcases min_choice x a with h | h <;> simp [h]
    · simp [h]

theorem minArr_spec {a : List ℝ} (h : a ≠ []) : ∃ m ∈ a, minArr a = .ok m ∧ ∀ y ∈ a, m ≤ y := by
  cases a with
  | nil => exact absurd rfl h
  | cons x xs =>
    refine ⟨xs.foldl min x, foldl_min_mem xs x, rfl, fun y hy => ?_⟩
    rcases List.mem_cons.1 hy with rfl | hy
    · exact (foldl_min_le xs _).1
    · exact (foldl_min_le xs x).2 y hy

theorem clip01_eq {x : ℝ} (h0 : 0 ≤ x) (h1 : x ≤ 1) : Jnp.clip x 0 1 = x := by
  unfold Jnp.clip; rw [max_eq_left h0, min_eq_left h1]

/-- Everything the value check does: an array is rejected iff it is empty, has a value below `-TOL`, or has *all* its values
above `1+TOL`; otherwise each value is clipped to `[0,1]`. -/
theorem C67_check_spec (t : List ℝ) :
    ((t = [] ∨ (∃ x ∈ t, x < -0.01) ∨ ∀ x ∈ t, 1.01 < x) → check_and_clip t = .error .valueError) ∧
    (¬ (t = [] ∨ (∃ x ∈ t, x < -0.01) ∨ ∀ x ∈ t, 1.01 < x) →
      check_and_clip t = .ok (t.map fun x => min (max x 0) 1)) := by
  by_cases hne : t = []
  · subst hne
    refine ⟨fun _ => rfl, fun h => absurd (Or.inl rfl) h⟩
  obtain ⟨m, hm, he, hle⟩ := minArr_spec hne
  have key : check_and_clip t = if m < -TOL then .error .valueError else if m > 1 + TOL then .error .valueError
      else .ok (t.map fun x => Jnp.clip x 0 1) := by
    unfold check_and_clip
    rw [he]; rfl
  have hT : TOL = 0.01 := rfl
  have h1 : (∃ x ∈ t, x < -0.01) ↔ m < -TOL := by
    rw [hT]
    exact ⟨fun ⟨x, hx, h⟩ => (hle x hx).trans_lt h, fun h => ⟨m, hm, h⟩⟩
  have h2 : (∀ x ∈ t, 1.01 < x) ↔ m > 1 + TOL := by
    rw [hT]
    constructor
    · intro h; have := h m hm; norm_num at this ⊢; exact this
    · intro h x hx; have := hle x hx; norm_num at h ⊢; linarith
  rw [h1, h2, key]
  constructor
  · rintro (h | h | h)
    · exact absurd h hne
    · rw [if_pos h]
    · split_ifs <;> rfl
  · intro h
    push Not at h
    rw [if_neg (not_lt.2 h.2.1), if_neg (not_lt.2 h.2.2)]
    rfl

theorem load_ok {w : World} {fn bn_pat drn : Option Str} {c : TransmissionCurve}
    (h : load_transmission_curve w fn bn_pat drn = .ok c) :
    ∃ f hdf wave t, resolve w fn bn_pat drn = .ok f ∧ w.hdf f = some hdf ∧ hdf.get (chars! "wave") = .ok (.d1 wave) ∧
      hdf.get (chars! "transmission") = .ok (.d1 t) ∧ check_and_clip t = .ok c.transmission ∧ c.wave = wave := by
  unfold load_transmission_curve at h
  cases hr : resolve w fn bn_pat drn with
  | error e => rw [hr] at h; cases h
  | ok f =>
    rw [hr] at h
    simp only [bind, Except.bind] at h
    cases hh : w.hdf f with
    | none => rw [hh] at h; cases h
    | some hdf =>
      rw [hh] at h
      simp only [read_curve, bind, Except.bind] at h
      cases h1 : hdf.get (chars! "wave") with
      | error e => rw [h1] at h; cases h
      | ok d1 =>
        rw [h1] at h; simp only at h
        cases d1 with
        | d3 a => cases h
        | bytes n a => cases h
        | d1 wave =>
          simp only [asD1] at h
          cases h2 : hdf.get (chars! "transmission") with
          | error e => rw [h2] at h; cases h
          | ok d2 =>
            rw [h2] at h; simp only at h
            cases d2 with
            | d3 a => cases h
            | bytes n a => cases h
            | d1 t =>
              simp only at h
              cases h3 : check_and_clip t with
              | error e => rw [h3] at h; cases h
              | ok t' =>
                rw [h3] at h
                cases h
                exact ⟨f, hdf, wave, t, rfl, hh, h1, h2, h3, rfl⟩

/-- Whatever the file contains, a returned curve has all its transmission values in `[0,1]`. -/
theorem C67_in_unit_interval {w : World} {fn bn_pat drn : Option Str} {c : TransmissionCurve}
    (h : load_transmission_curve w fn bn_pat drn = .ok c) : ∀ x ∈ c.transmission, 0 ≤ x ∧ x ≤ 1 := by
  obtain ⟨f, hdf, wave, t, -, -, -, -, hc, -⟩ := load_ok h
  obtain ⟨h1, h2⟩ := C67_check_spec t
  by_cases hb : (t = [] ∨ (∃ x ∈ t, x < -0.01) ∨ ∀ x ∈ t, 1.01 < x)
  · rw [h1 hb] at hc; cases hc
  · rw [h2 hb] at hc
    injection hc with hc
    rw [← hc]
    intro x hx
    obtain ⟨y, -, rfl⟩ := List.mem_map.1 hx
    exact ⟨le_min (le_max_right _ _) zero_le_one, min_le_right _ _⟩

/-- The loader's complete behaviour on a file whose two datasets are one-dimensional: the wavelengths are returned as
stored, the transmission is stored values clipped, unless the check rejects the array. -/
theorem C67_load_spec {w : World} {f : Str} {hdf : Hdf} {wave t : List ℝ} (bn_pat drn : Option Str) (hf : w.isfile f = true)
    (hh : w.hdf f = some hdf) (hw : hdf.lookup (chars! "wave") = some (.d1 wave))
    (ht : hdf.lookup (chars! "transmission") = some (.d1 t)) :
    ((t = [] ∨ (∃ x ∈ t, x < -0.01) ∨ ∀ x ∈ t, 1.01 < x) →
      load_transmission_curve w (some f) bn_pat drn = .error .valueError) ∧
    (¬ (t = [] ∨ (∃ x ∈ t, x < -0.01) ∨ ∀ x ∈ t, 1.01 < x) →
      load_transmission_curve w (some f) bn_pat drn = .ok ⟨wave, t.map fun x => min (max x 0) 1⟩) := by
  have key : load_transmission_curve w (some f) bn_pat drn =
      match check_and_clip t with
      | .ok t' => .ok ⟨wave, t'⟩
      | .error e => .error e := by
    have hr : resolve w (some f) bn_pat drn = .ok f := by
      unfold resolve; simp only [hf, if_true, pure_bind]; rfl
    unfold load_transmission_curve
    rw [hr]
    simp only [bind, Except.bind, hh, read_curve, Hdf.get, hw, ht, asD1]
    cases check_and_clip t <;> rfl
  obtain ⟨h1, h2⟩ := C67_check_spec t
  rw [key]
  exact ⟨fun h => by rw [h1 h], fun h => by rw [h2 h]⟩

/-- Values already in `[0,1]` are returned unchanged. -/
theorem C67_unchanged {w : World} {f : Str} {hdf : Hdf} {wave t : List ℝ} (bn_pat drn : Option Str) (hf : w.isfile f = true)
    (hh : w.hdf f = some hdf) (hw : hdf.lookup (chars! "wave") = some (.d1 wave))
    (ht : hdf.lookup (chars! "transmission") = some (.d1 t)) (hne : t ≠ []) (h01 : ∀ x ∈ t, 0 ≤ x ∧ x ≤ 1) :
    load_transmission_curve w (some f) bn_pat drn = .ok ⟨wave, t⟩ := by
  rw [(C67_load_spec bn_pat drn hf hh hw ht).2]
  · congr 2
    conv_rhs => rw [← List.map_id t]
    apply List.map_congr_left
    intro x hx
    obtain ⟨h0, h1⟩ := h01 x hx
    rw [max_eq_left h0, min_eq_left h1]; rfl
  · rintro (h | ⟨x, hx, h⟩ | h)
    · exact hne h
    · have := (h01 x hx).1; norm_num at h; linarith
    · obtain ⟨x, hx⟩ := List.exists_mem_of_ne_nil t hne
      have := h x hx; have := (h01 x hx).2; norm_num at *; linarith

/-- A curve with a value below `-TOL` is rejected. -/
theorem C67_negative_rejected {w : World} {f : Str} {hdf : Hdf} {wave t : List ℝ} (bn_pat drn : Option Str)
    (hf : w.isfile f = true) (hh : w.hdf f = some hdf) (hw : hdf.lookup (chars! "wave") = some (.d1 wave))
    (ht : hdf.lookup (chars! "transmission") = some (.d1 t)) {x : ℝ} (hx : x ∈ t) (hneg : x < -0.01) :
    load_transmission_curve w (some f) bn_pat drn = .error .valueError :=
  (C67_load_spec bn_pat drn hf hh hw ht).1 (Or.inr (Or.inl ⟨x, hx, hneg⟩))

/-- **Negation of part of C67.**  A curve that exceeds `1+TOL` (here: stored in per cent, up to 95) is *not* rejected: the
code tests `transmission.min() > 1 + TOL`, so one value `≤ 1.01` anywhere silences the check and the curve is returned as a
top hat. -/
theorem C67_exceeding_accepted (w : World) (f : Str) (hf : w.isfile f = true) (bn_pat drn : Option Str)
    (hh : w.hdf f = some [(chars! "wave", .d1 [4000, 5000, 6000]), (chars! "transmission", .d1 [0, 95, 80])]) :
    load_transmission_curve w (some f) bn_pat drn = .ok ⟨[4000, 5000, 6000], [0, 1, 1]⟩ := by
  rw [(C67_load_spec (wave := [4000, 5000, 6000]) (t := [0, 95, 80]) bn_pat drn hf hh rfl rfl).2]
  · norm_num
  · norm_num
    exact List.cons_ne_nil _ _

/-- What holds of the upper check: rejection when the whole curve exceeds `1+TOL`. -/
theorem C67_exceeding_rejected_partial {w : World} {f : Str} {hdf : Hdf} {wave t : List ℝ} (bn_pat drn : Option Str)
    (hf : w.isfile f = true) (hh : w.hdf f = some hdf) (hw : hdf.lookup (chars! "wave") = some (.d1 wave))
    (ht : hdf.lookup (chars! "transmission") = some (.d1 t)) (hall : ∀ x ∈ t, 1.01 < x) :
    load_transmission_curve w (some f) bn_pat drn = .error .valueError :=
  (C67_load_spec bn_pat drn hf hh hw ht).1 (Or.inr (Or.inr hall))

/-- A file system with one ordinary filter file meets the hypotheses. -/
example : ∃ w : World, ∃ f hdf, ∃ wave t : List ℝ, w.isfile f = true ∧ w.hdf f = some hdf ∧
    hdf.lookup (chars! "wave") = some (.d1 wave) ∧ hdf.lookup (chars! "transmission") = some (.d1 t) ∧ t ≠ [] ∧
    ∀ x ∈ t, (0:ℝ) ≤ x ∧ x ≤ 1 :=
  ⟨⟨fun _ => none, fun _ => false, fun _ => true, fun _ => [],
    fun _ => some [(chars! "wave", .d1 [4000, 5000]), (chars! "transmission", .d1 [0.25, 0.5])]⟩, [], _, _, _,
    rfl, rfl, rfl, rfl, by simp, by norm_num⟩

/-! ### C68 -/

/-- `fn` wins over everything else. -/
theorem C68_fn_wins (w : World) (f : Str) (bn_pat drn drn' : Option Str) (bn : Str) :
    LoadFilterData.resolve w (some f) bn_pat drn = (if w.isfile f then .ok f else .error .assertionError) ∧
    LoadSspData.resolve w (some f) drn' bn = (if w.isfile f then .ok f else .error .assertionError) :=
  ⟨rfl, rfl⟩

/-- Without `fn`, a given `drn` is used and the environment is ignored. -/
theorem C68_ssp_drn (w : World) (drn bn : Str) :
    LoadSspData.resolve w none (some drn) bn =
      (if w.isfile (pathJoin drn bn) then .ok (pathJoin drn bn) else .error .assertionError) := rfl

/-- Without `fn` and `drn`, the DSPS_DRN directory is used; without that variable the call raises ValueError. -/
theorem C68_ssp_env (w : World) (bn : Str) :
    (∀ drn, w.environ (chars! "DSPS_DRN") = some drn → LoadSspData.resolve w none none bn =
      (if w.isfile (pathJoin drn bn) then .ok (pathJoin drn bn) else .error .assertionError)) ∧
    (w.environ (chars! "DSPS_DRN") = none → LoadSspData.resolve w none none bn = .error .valueError) := by
  constructor
  · intro drn h; unfold LoadSspData.resolve; rw [h]; rfl
  · intro h; unfold LoadSspData.resolve; rw [h]; rfl

/-- Specification of the pattern lookup: exactly one match, and it is a regular file. -/
def UniqueMatch (w : World) (drn bn_pat f : Str) : Prop := w.glob (pathJoin drn bn_pat) = [f] ∧ w.isfile f = true

theorem filter_glob (w : World) (drn p f : Str) :
    LoadFilterData.resolve w none (some p) (some drn) = .ok f ↔ UniqueMatch w drn p f := by
  unfold LoadFilterData.resolve UniqueMatch
  simp only [pure_bind]
  rcases hg : w.glob (pathJoin drn p) with _ | ⟨a, _ | ⟨b, l⟩⟩
  · simp [bind, Except.bind, throw, throwThe, MonadExceptOf.throw]
  · simp only [List.length_singleton, bind, Except.bind, pure, Except.pure]
    by_cases hf : w.isfile a
    · simp only [hf]
      constructor
      · intro h; cases h; exact ⟨rfl, hf⟩
      · rintro ⟨h, -⟩; cases h; rfl
    · simp only [hf]
      constructor
      · intro h; cases h
      · rintro ⟨h, h'⟩; cases h; exact absurd h' hf
  · constructor
    · intro h
      simp only [List.length_cons, bind, Except.bind, throw, throwThe, MonadExceptOf.throw] at h
      rw [if_neg (by omega), if_pos (by omega)] at h
      simp at h
    · rintro ⟨h, -⟩; simp at h

/-- Without `fn`, a given `drn` is searched for the pattern (the environment is ignored): a file is returned iff it is the only
match and is a regular file; every other outcome (no match, several matches, not a file, no pattern) raises. -/
theorem C68_filter_drn (w : World) (drn p f : Str) :
    LoadFilterData.resolve w none (some p) (some drn) = .ok f ↔ UniqueMatch w drn p f := filter_glob w drn p f

theorem C68_filter_glob_errors (w : World) (drn p : Str) (h : (w.glob (pathJoin drn p)).length ≠ 1) :
    LoadFilterData.resolve w none (some p) (some drn) = .error .assertionError := by
  unfold LoadFilterData.resolve
  simp only [pure_bind]
  rcases hg : w.glob (pathJoin drn p) with _ | ⟨a, _ | ⟨b, l⟩⟩
  · rfl
  · rw [hg] at h; simp at h
  · simp only [List.length_cons, bind, Except.bind, throw, throwThe, MonadExceptOf.throw]
    rw [if_neg (by omega), if_pos (by omega)]

/-- No pattern and no `fn`: `os.path.join(drn, None)` is a TypeError. -/
theorem C68_filter_no_pattern (w : World) (drn : Str) :
    LoadFilterData.resolve w none none (some drn) = .error .typeError := rfl

/-- Without `fn` and `drn`, the `filters` subdirectory of DSPS_DRN is searched as if it had been passed; it must exist; without
the variable the call raises ValueError. -/
theorem C68_filter_env (w : World) (bn_pat : Option Str) :
    (∀ d, w.environ (chars! "DSPS_DRN") = some d → w.isdir (pathJoin d (chars! "filters")) = true →
      LoadFilterData.resolve w none bn_pat none =
        LoadFilterData.resolve w none bn_pat (some (pathJoin d (chars! "filters")))) ∧
    (∀ d, w.environ (chars! "DSPS_DRN") = some d → w.isdir (pathJoin d (chars! "filters")) = false →
      LoadFilterData.resolve w none bn_pat none = .error .assertionError) ∧
    (w.environ (chars! "DSPS_DRN") = none → LoadFilterData.resolve w none bn_pat none = .error .valueError) := by
  refine ⟨?_, ?_, ?_⟩
  · intro d h1 h2; unfold LoadFilterData.resolve; simp only [h1, h2, if_true, pure_bind]
  · intro d h1 h2; unfold LoadFilterData.resolve; simp only [h1, h2]; rfl
  · intro h; unfold LoadFilterData.resolve; simp only [h]; rfl

/-- `os.path.join` on relative second arguments puts the file below the directory. -/
theorem C68_pathJoin (a b : Str) (hb : b.head? ≠ some '/') (ha : a ≠ []) :
    (a.getLast? ≠ some '/' → pathJoin a b = a ++ '/' :: b) ∧ (a.getLast? = some '/' → pathJoin a b = a ++ b) := by
  unfold pathJoin; rw [if_neg hb]
  exact ⟨fun h => if_neg (by simp [ha, h]), fun h => if_pos (Or.inr h)⟩

/-- `dummy=True` ignores `fn`, `drn`, `bn`, the environment and every SSP file. -/
theorem C68_dummy [XID] (fake : Except PyErr SSPData) (w w' : World) (fn drn fn' drn' : Option Str) (bn bn' : Str) :
    LoadSspData.load_ssp_templates fake w fn drn bn true = fake ∧
    LoadSspData.load_ssp_templates fake w fn drn bn true = LoadSspData.load_ssp_templates fake w' fn' drn' bn' true :=
  ⟨rfl, rfl⟩

/-- The file that is read is the resolved one: the outcome depends on the world only through the resolution and the contents
of the resolved file. -/
theorem C68_reads_only_resolved [XID] (fake : Except PyErr SSPData) (w w' : World) (fn drn : Option Str) (bn : Str)
    (h1 : LoadSspData.resolve w fn drn bn = LoadSspData.resolve w' fn drn bn)
    (h2 : ∀ f, LoadSspData.resolve w fn drn bn = .ok f → w.hdf f = w'.hdf f) :
    LoadSspData.load_ssp_templates fake w fn drn bn false = LoadSspData.load_ssp_templates fake w' fn drn bn false := by
  unfold LoadSspData.load_ssp_templates
  rw [← h1]
  cases hr : LoadSspData.resolve w fn drn bn with
  | error e => rfl
  | ok f => simp only [bind, Except.bind, h2 f hr]

theorem C68_filter_reads_only_resolved (w w' : World) (fn bn_pat drn : Option Str)
    (h1 : LoadFilterData.resolve w fn bn_pat drn = LoadFilterData.resolve w' fn bn_pat drn)
    (h2 : ∀ f, LoadFilterData.resolve w fn bn_pat drn = .ok f → w.hdf f = w'.hdf f) :
    load_transmission_curve w fn bn_pat drn = load_transmission_curve w' fn bn_pat drn := by
  unfold load_transmission_curve
  rw [← h1]
  cases hr : LoadFilterData.resolve w fn bn_pat drn with
  | error e => rfl
  | ok f => simp only [bind, Except.bind, h2 f hr]

/-- A world with the variable set and one matching filter. -/
example : ∃ w : World, LoadFilterData.resolve w none (some (chars! "lsst_r*")) none = .ok (chars! "/d/filters/lsst_r.h5") :=
  ⟨⟨fun _ => some (chars! "/d"), fun _ => true, fun _ => true,
    fun p => if p = chars! "/d/filters/lsst_r*" then [chars! "/d/filters/lsst_r.h5"] else [], fun _ => none⟩, by decide⟩

/-! ### C72 -/

theorem linspace_eq (a b : ℝ) (n : ℕ) (i : Fin (n + 2)) :
    Jnp.linspace a b n i = a + (b - a) * ((i : ℝ) / ((n : ℝ) + 1)) := by
  unfold Jnp.linspace
  have hn : (n : ℝ) + 1 ≠ 0 := by positivity
  split_ifs with h
  · rw [h, Fin.val_last]; push_cast; rw [div_self hn]; ring
  · ring

theorem linspace_strictMono {a b : ℝ} (h : a < b) (n : ℕ) : StrictMono (Jnp.linspace a b n) := by
  intro i j hij
  rw [linspace_eq, linspace_eq]
  have hn : (0:ℝ) < (n : ℝ) + 1 := by positivity
  have : (i : ℝ) < (j : ℝ) := by exact_mod_cast hij
  have := div_lt_div_of_pos_right this hn
  nlinarith [sub_pos.2 h]

theorem linspace_ends (a b : ℝ) (n : ℕ) :
    Jnp.linspace a b n 0 = a ∧ Jnp.linspace a b n (Fin.last (n + 1)) = b := by
  refine ⟨?_, ?_⟩
  · rw [linspace_eq]; simp
  · unfold Jnp.linspace; simp

theorem normPdf_ratio {x y c s : ℝ} :
    normPdf x c s / normPdf y c s = Real.exp (((y - c) ^ 2 - (x - c) ^ 2) / (2 * s ^ 2)) := by
  unfold normPdf
  rw [← Real.exp_sub]
  congr 1
  rcases eq_or_ne s 0 with rfl | hs
  · simp
  · field_simp; ring

/-- Specification: an equally spaced wavelength grid spanning the range, with a Gaussian of width `scale` around `c` scaled so
that its largest value on the grid is one. -/
structure IsGaussianFilter (lo hi c scale : ℝ) (wave t : Fin 200 → ℝ) : Prop where
  first : wave 0 = lo
  last : wave (Fin.last 199) = hi
  incr : StrictMono wave
  spaced : ∀ i : Fin 199, wave i.succ - wave i.castSucc = (hi - lo) / 199
  pos : ∀ i, 0 < t i
  le_one : ∀ i, t i ≤ 1
  attains : ∃ i, t i = 1
  gauss : ∀ i j, t i = t j * Real.exp (((wave j - c) ^ 2 - (wave i - c) ^ 2) / (2 * scale ^ 2))

theorem maxArr_spec {n : ℕ} (a : Fin (n + 1) → ℝ) : (∃ i, maxArr a = a i) ∧ ∀ i, a i ≤ maxArr a := by
  constructor
  · obtain ⟨i, -, h⟩ := Finset.exists_mem_eq_sup' (Finset.univ_nonempty (α := Fin (n + 1))) a
    exact ⟨i, h⟩
  · intro i; exact Finset.le_sup' a (Finset.mem_univ i)

theorem gaussian_curve {lo hi : ℝ} (h : lo < hi) (c scale : ℝ) :
    IsGaussianFilter lo hi c scale (Jnp.linspace lo hi 198)
      (fun i => normPdf (Jnp.linspace lo hi 198 i) c scale / maxArr fun i : Fin 200 => normPdf (Jnp.linspace lo hi 198 i) c scale) := by
  have hp : ∀ x, 0 < normPdf x c scale := fun x => Real.exp_pos _
  generalize ha : (fun i : Fin 200 => normPdf (Jnp.linspace lo hi 198 i) c scale) = a
  have ha' : ∀ i, normPdf (Jnp.linspace lo hi 198 i) c scale = a i := fun i => congrFun ha i
  obtain ⟨⟨k, hk⟩, hle⟩ := maxArr_spec (n := 199) a
  have hmax : 0 < maxArr (n := 199) a := by rw [hk, ← ha' k]; exact hp _
  refine ⟨(linspace_ends lo hi 198).1, (linspace_ends lo hi 198).2, linspace_strictMono h 198, ?_, ?_, ?_, ⟨k, ?_⟩, ?_⟩
  · intro i
    rw [linspace_eq, linspace_eq]
    simp only [Fin.val_succ, Fin.val_castSucc]; push_cast; ring
  · intro i; exact div_pos (hp _) hmax
  · intro i; simp only [ha']; exact (div_le_one hmax).2 (hle i)
  · simp only [ha']; rw [← hk]; exact div_self hmax.ne'
  · intro i j
    have := normPdf_ratio (x := Jnp.linspace lo hi 198 i) (y := Jnp.linspace lo hi 198 j) (c := c) (s := scale)
    rw [← this, div_mul_div_comm, mul_comm (normPdf _ _ _) (normPdf (Jnp.linspace lo hi 198 i) _ _),
      mul_div_mul_right _ _ (hp _).ne']

/-- A centre inside the range gives a valid filter curve centred there; one outside (or on the border) raises. -/
theorem C72_given_centre {lo hi : ℝ} (h : lo < hi) (u c scale : ℝ) :
    (lo < c ∧ c < hi → ∃ wave t, load_random_transmission_curve u (some c) (lo, hi) scale = .ok (wave, t) ∧
      IsGaussianFilter lo hi c scale wave t) ∧
    (¬ (lo < c ∧ c < hi) → load_random_transmission_curve u (some c) (lo, hi) scale = .error .assertionError) := by
  constructor
  · intro hc
    refine ⟨_, _, ?_, gaussian_curve h c scale⟩
    unfold load_random_transmission_curve
    simp only [if_pos hc]; rfl
  · intro hc
    unfold load_random_transmission_curve
    simp only [if_neg hc]; rfl

/-- With no centre given the call never raises and yields a valid filter curve; if the range is at least four widths long the
random centre stays two widths away from both ends. -/
theorem C72_random_centre {lo hi : ℝ} (h : lo < hi) {u scale : ℝ} (hu0 : 0 ≤ u) (hu1 : u < 1) :
    ∃ c wave t, load_random_transmission_curve u none (lo, hi) scale = .ok (wave, t) ∧
      IsGaussianFilter lo hi c scale wave t ∧
      (4 * scale ≤ hi - lo → lo + 2 * scale ≤ c ∧ c ≤ hi - 2 * scale) ∧ lo + 2 * scale ≤ c := by
  refine ⟨uniform u (lo + scale * 2) (hi - scale * 2), _, _, rfl, gaussian_curve h _ scale, ?_, ?_⟩
  · intro h4
    unfold uniform
    refine ⟨?_, max_le ?_ ?_⟩
    · rw [mul_comm 2]; exact le_max_left _ _
    · linarith
    · nlinarith
  · rw [mul_comm 2]; exact le_max_left _ _

/-- Every target centre two widths inside the range is hit by some draw: nothing in between is unreachable. -/
theorem C72_centre_surjective {lo hi scale c : ℝ} (h4 : 4 * scale < hi - lo) (h1 : lo + 2 * scale ≤ c)
    (h2 : c < hi - 2 * scale) : ∃ u, 0 ≤ u ∧ u < 1 ∧ uniform u (lo + scale * 2) (hi - scale * 2) = c := by
  have hd : 0 < hi - scale * 2 - (lo + scale * 2) := by linarith
  refine ⟨(c - (lo + scale * 2)) / (hi - scale * 2 - (lo + scale * 2)), div_nonneg (by linarith) hd.le, ?_, ?_⟩
  · rw [div_lt_one hd]; linarith
  · unfold uniform
    rw [div_mul_cancel₀ _ hd.ne', max_eq_right (by linarith)]; ring

/-- When the range is shorter than four widths the drawn centre is not protected: it can lie outside the range. -/
theorem C72_short_range_centre_outside :
    ∃ c, uniform 0.5 (1000 + 300 * 2) (1100 - 300 * 2) = c ∧ ¬ c < 1100 := by
  refine ⟨_, rfl, ?_⟩
  unfold uniform; norm_num

/-- The defaults: range 1000-10000, width 300. -/
example : (1000:ℝ) < 10000 ∧ 4 * (300:ℝ) ≤ 10000 - 1000 ∧ (0:ℝ) ≤ 0.5 ∧ (0.5:ℝ) < 1 := by norm_num

section CaseLoaders
/-- a file system on which `/d/filters/lsst_r.h5` is the only filter file and holds the transmission curve `t` -/
noncomputable def caseWorld (t : List ℝ) : World :=
  ⟨fun _ => some (chars! "/d"), fun _ => true, fun f => f == chars! "/d/filters/lsst_r.h5",
    fun p => if p = chars! "/d/filters/lsst_r*" then [chars! "/d/filters/lsst_r.h5"] else [],
    fun f => if f = chars! "/d/filters/lsst_r.h5" then some [(chars! "wave", .d1 [4000, 5000]), (chars! "transmission", .d1 t)] else none⟩
/-- C67 and C68 applied to that file system -/
example := C67_load_spec (w := caseWorld [-0.005, 1.005]) (f := chars! "/d/filters/lsst_r.h5") none none rfl rfl rfl rfl
theorem case_load : load_transmission_curve (caseWorld [0.25, 0.5]) (some (chars! "/d/filters/lsst_r.h5")) none none = .ok ⟨[4000, 5000], [0.25, 0.5]⟩ :=
  C67_unchanged (w := caseWorld [0.25, 0.5]) (f := chars! "/d/filters/lsst_r.h5") none none rfl rfl rfl rfl
  (by simp) (by norm_num)
example := C67_in_unit_interval case_load
example := C67_negative_rejected (w := caseWorld [0.25, -0.5]) (f := chars! "/d/filters/lsst_r.h5") none none rfl rfl rfl rfl
  (x := -0.5) (by simp) (by norm_num)
example := C67_exceeding_rejected_partial (w := caseWorld [25, 50]) (f := chars! "/d/filters/lsst_r.h5") none none rfl rfl rfl rfl
  (by norm_num)
example := C67_exceeding_accepted ⟨fun _ => none, fun _ => false, fun _ => true, fun _ => [],
  fun _ => some [(chars! "wave", .d1 [4000, 5000, 6000]), (chars! "transmission", .d1 [0, 95, 80])]⟩ (chars! "f.h5") rfl none none rfl
example := C68_filter_glob_errors (caseWorld [0.25]) (chars! "/d/filters") (chars! "lsst_g*") (by
  have e : pathJoin (chars! "/d/filters") (chars! "lsst_g*") ≠ chars! "/d/filters/lsst_r*" := by decide
  simp [caseWorld, e])
example := (C68_ssp_env (caseWorld []) (chars! "x.h5")).1 (chars! "/d") rfl
example := (C68_filter_env (caseWorld []) none).1 (chars! "/d") rfl rfl
example := (C68_pathJoin (chars! "/d") (chars! "x.h5") (by decide) (by decide)).1 (by decide)
/-- two worlds that agree on one file only -/
example [XID] (fake : Except PyErr SSPData) := C68_reads_only_resolved fake (caseWorld [0.25])
  { caseWorld [0.25] with environ := fun _ => none, glob := fun _ => [] } (some (chars! "/d/filters/lsst_r.h5")) none (chars! "y")
  rfl (fun _ _ => rfl)
example := C68_filter_reads_only_resolved (caseWorld [0.25])
  { caseWorld [0.25] with environ := fun _ => none, glob := fun _ => [] } (some (chars! "/d/filters/lsst_r.h5")) none none
  rfl (fun _ _ => rfl)
/-- C72 applied to the defaults -/
example := (C72_given_centre (lo := 1000) (hi := 10000) (by norm_num) 0.5 5000 300).1 (by norm_num)
example := C72_random_centre (lo := 1000) (hi := 10000) (by norm_num) (u := 0.5) (scale := 300) (by norm_num) (by norm_num)
example := C72_centre_surjective (lo := 1000) (hi := 10000) (scale := 300) (c := 1600) (by norm_num) (by norm_num) (by norm_num)
end CaseLoaders

end Dsps.Props
