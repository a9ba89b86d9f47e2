import Mathlib.Tactic.Linarith
import Mathlib.Tactic.FieldSimp
import Verif.Model.PlotMzr

/-! C123, C124: the mass–metallicity comparison plot. -/
namespace Dsps.Props
open Py Jnp Dsps.Umzr Dsps.PlotMzr

/-! ### Specification -/

/-- the five cosmic times (Gyr) shown in the figure -/
def plotTimes : List ℝ := [2, 5, 8, 11, 14]
/-- the 1000 values of log10 stellar mass, equally spaced from 2 to 14 -/
noncomputable def plotMasses : List ℝ := (List.range 1000).map fun i : ℕ => 2 + 12 * (i : ℝ) / 999
/-- the curves of a model: metallicity against mass at the five times -/
noncomputable def modelCurves (p : MZRParams) : List (List ℝ) := plotTimes.map fun t => plotMasses.map fun m => mzr_model m t p
/-- the curves of the figure that have the line style shown in a legend entry -/
def curvesLike (fig : Figure) (h : Handle) : List (List ℝ) :=
  (fig.lines.filter fun l => l.marker = none ∧ l.ls = h.ls).map Line.y
/-- the entries of the main legend with a given label -/
def entries (fig : Figure) (label : Str) : List Handle := (fig.legends.getLastD []).filter fun h => h.marker = none ∧ h.label = label

/-- the figure is what a call returned, for some state of pyplot -/
def Returned (e : Env) (params params2 : MZRParams) (fname : Option Str) (label1 label2 : Str) (fig : Figure) : Prop :=
  ∃ s, (make_mzr_comparison_plot e params params2 fname label1 label2 s).1 = .ok fig

/-! ### Lemmas -/

theorem ofFn_linspace (a b : ℝ) (n : ℕ) :
    List.ofFn (linspace a b n) = (List.range (n + 2)).map fun i : ℕ => a + (b - a) * (i : ℝ) / (n + 1) := by
  have hn : (n : ℝ) + 1 ≠ 0 := by positivity
  apply List.ext_getElem
  · simp
  · intro i h1 h2
    simp only [List.getElem_ofFn, List.getElem_map, List.getElem_range, linspace]
    split_ifs with h
    · have : i = n + 1 := by simpa [Fin.ext_iff, Fin.last] using h
      subst this; push_cast; field_simp; ring
    · field_simp; ring

theorem plot_masses_eq : List.ofFn logsm_arr = plotMasses := by
  refine (ofFn_linspace 2 14 998).trans ?_
  unfold plotMasses
  refine List.map_congr_left fun i _ => ?_
  norm_num

theorem plot_curve (e : Env) (p : MZRParams) (ls : LineStyle) (i : Fin 5) : curve e p ls i =
    ⟨plotMasses, plotMasses.map fun m => mzr_model m (t_arr i) p, ls, colors e i, none⟩ := by
  unfold curve
  rw [← plot_masses_eq, List.map_ofFn]; rfl

theorem plot_t_arr : t_arr 0 = 2 ∧ t_arr 1 = 5 ∧ t_arr 2 = 8 ∧ t_arr 3 = 11 ∧ t_arr 4 = 14 := by
  refine ⟨?_, ?_, ?_, ?_, ?_⟩ <;> simp [t_arr, linspace, Fin.ext_iff] <;> norm_num

/-- the returned figure, and when there is one -/
theorem plot_inv {e : Env} {p p2 : MZRParams} {fname : Option Str} {l1 l2 : Str} {fig : Figure}
    (h : Returned e p p2 fname l1 l2 fig) : ∃ obs, observed e = .ok obs ∧
      fig = ⟨curves e p p2 ++ obs, [redshiftLegend e, mainLegend l1 l2], (4.1, 12.4), (-7.5, -1.1)⟩ := by
  obtain ⟨s, h⟩ := h
  unfold make_mzr_comparison_plot at h
  split at h
  · simp at h
  · split at h
    · simp at h
    · rename_i obs ho
      refine ⟨obs, ho, ?_⟩
      cases fname with
      | none => simpa using h.symm
      | some f =>
        simp only at h
        split at h
        · simpa using h.symm
        · simp at h

theorem points_ok {e : Env} {bn : Str} {c : Color} {m : Char} {l : Line} (h : points e bn c m = .ok l) :
    ∃ rows, e.loadtxt (pathJoin (drn e) bn) = .ok rows ∧ 2 ≤ rows.length ∧ (∀ r ∈ rows, 2 ≤ r.length) ∧
      l = ⟨everySecond (rows.map (·.getD 0 0)), everySecond (rows.map fun r => r.getD 1 0 + LGMET_SOLAR), .none, c, some m⟩ := by
  unfold points at h
  simp only at h
  cases hl : e.loadtxt (pathJoin (drn e) bn) with
  | error err => rw [hl] at h; simp [bind, Except.bind] at h
  | ok rows =>
    rw [hl] at h
    simp only [bind, Except.bind, column, pure, Except.pure] at h
    split_ifs at h with h1 h2 h3 <;> simp at h
    push Not at h1
    simp at h1
    refine ⟨rows, rfl, h1.1, h1.2, h ▸ ?_⟩
    simp [Function.comp_def]

theorem points_good {e : Env} {bn : Str} (c : Color) (m : Char) {rows : List (List ℝ)} (h : e.loadtxt (pathJoin (drn e) bn) = .ok rows)
    (h1 : 2 ≤ rows.length) (h2 : ∀ r ∈ rows, 2 ≤ r.length) :
    points e bn c m = .ok ⟨everySecond (rows.map (·.getD 0 0)), everySecond (rows.map fun r => r.getD 1 0 + LGMET_SOLAR), .none, c, some m⟩ := by
  have k1 : ¬ (rows.length < 2 ∨ rows.any (fun r => decide (r.length < 2)) = true) := by
    simp only [not_or, not_lt, List.any_eq_true, decide_eq_true_eq, not_exists, not_and]
    exact ⟨h1, h2⟩
  have k2 : ∀ k < 2, ¬ (rows.any (fun r => decide (r.length ≤ k)) = true) := by
    intro k hk
    simp only [List.any_eq_true, decide_eq_true_eq, not_exists, not_and, not_le]
    intro r hr; have := h2 r hr; omega
  simp only [points, h, bind, Except.bind, column, pure, Except.pure, if_neg k1, if_neg (k2 0 (by norm_num)),
    if_neg (k2 1 (by norm_num))]
  simp [Function.comp_def]

/-- A file that `numpy.loadtxt` parses to a table with at least two rows and two columns. -/
def GoodTable (e : Env) (bn : Str) (rows : List (List ℝ)) : Prop :=
  e.loadtxt (pathJoin (drn e) bn) = .ok rows ∧ 2 ≤ rows.length ∧ ∀ r ∈ rows, 2 ≤ r.length

/-- the file names of the three data sets -/
def fileM18 : Str := chars! "maiolino_etal18_mzr.dat"
def fileK13 : Str := chars! "kirby_etal13_mzr.dat"
def fileG05 : Str := chars! "galazzi_etal05_mzr.dat"

/-- a data set drawn with a marker: every second row, second column shifted by the logarithm of the solar metal fraction -/
noncomputable def markers (rows : List (List ℝ)) (c : Color) (m : Char) : Line :=
  ⟨everySecond (rows.map (·.getD 0 0)), everySecond (rows.map fun r => r.getD 1 0 + LGMET_SOLAR), .none, c, some m⟩

theorem observed_ok_iff {e : Env} {obs : List Line} : observed e = .ok obs ↔ ∃ r1 r2 r3, GoodTable e fileM18 r1 ∧
    GoodTable e fileK13 r2 ∧ GoodTable e fileG05 r3 ∧
    obs = [markers r1 (.named (chars! "k")) '*', markers r2 MGREEN 'v', markers r3 MPURPLE 'd'] := by
  constructor
  · intro h
    unfold observed at h
    cases h1 : points e (chars! "maiolino_etal18_mzr.dat") (.named (chars! "k")) '*' with
    | error _ => rw [h1] at h; simp [bind, Except.bind] at h
    | ok a =>
    cases h2 : points e (chars! "kirby_etal13_mzr.dat") MGREEN 'v' with
    | error _ => rw [h1, h2] at h; simp [bind, Except.bind] at h
    | ok b =>
    cases h3 : points e (chars! "galazzi_etal05_mzr.dat") MPURPLE 'd' with
    | error _ => rw [h1, h2, h3] at h; simp [bind, Except.bind] at h
    | ok c =>
    rw [h1, h2, h3] at h
    simp only [bind, Except.bind, pure, Except.pure, Except.ok.injEq] at h
    obtain ⟨r1, a1, b1, c1, d1⟩ := points_ok h1
    obtain ⟨r2, a2, b2, c2, d2⟩ := points_ok h2
    obtain ⟨r3, a3, b3, c3, d3⟩ := points_ok h3
    exact ⟨r1, r2, r3, ⟨a1, b1, c1⟩, ⟨a2, b2, c2⟩, ⟨a3, b3, c3⟩, by rw [← h, d1, d2, d3]; rfl⟩
  · rintro ⟨r1, r2, r3, ⟨a1, b1, c1⟩, ⟨a2, b2, c2⟩, ⟨a3, b3, c3⟩, rfl⟩
    unfold observed
    have e1 := points_good (.named (chars! "k")) '*' a1 b1 c1
    have e2 := points_good MGREEN 'v' a2 b2 c2
    have e3 := points_good MPURPLE 'd' a3 b3 c3
    unfold fileM18 at e1; unfold fileK13 at e2; unfold fileG05 at e3
    rw [e1, e2, e3]
    rfl

theorem observed_markers {e : Env} {obs : List Line} (h : observed e = .ok obs) : ∀ l ∈ obs, l.marker ≠ none := by
  obtain ⟨r1, r2, r3, -, -, -, rfl⟩ := observed_ok_iff.1 h
  simp [markers]

theorem curves_eq (e : Env) (p p2 : MZRParams) : curves e p p2 =
    [curve e p .solid 0, curve e p2 .dashed 0, curve e p .solid 1, curve e p2 .dashed 1, curve e p .solid 2, curve e p2 .dashed 2,
     curve e p .solid 3, curve e p2 .dashed 3, curve e p .solid 4, curve e p2 .dashed 4] := by
  simp only [curves, List.ofFn_succ, List.ofFn_zero]
  rfl

theorem curvesLike_eq {e : Env} {p p2 : MZRParams} {fname : Option Str} {l1 l2 : Str} {fig : Figure}
    (h : Returned e p p2 fname l1 l2 fig) (hd : Handle) :
    (hd.ls = .solid → curvesLike fig hd = modelCurves p) ∧ (hd.ls = .dashed → curvesLike fig hd = modelCurves p2) := by
  obtain ⟨obs, ho, rfl⟩ := plot_inv h
  have hm := observed_markers ho
  have hf : ∀ q : LineStyle, (obs.filter fun l => decide (l.marker = none ∧ l.ls = q)) = [] := by
    intro q
    rw [List.filter_eq_nil_iff]
    intro l hl; simp [hm l hl]
  obtain ⟨t0, t1, t2, t3, t4⟩ := plot_t_arr
  have hf' := hf
  simp only [Bool.decide_and] at hf'
  constructor <;> intro hls <;>
    simp [curvesLike, hls, hf', List.filter_append, curves_eq, plot_curve, List.filter_cons, modelCurves, plotTimes, t0, t1, t2, t3, t4]

/-! ### C123: the legend -/

/-- C123: the main legend names the two models the wrong way round.  In every figure the function returns, there is exactly one entry
labelled `label1` and one labelled `label2`; the curves drawn like the entry `label1` ("new model") are those of `params2` (the default
model), and the curves drawn like `label2` ("default model") are those of `params`. -/
theorem C123_legend_swapped {e : Env} {params params2 : MZRParams} {fname : Option Str} {label1 label2 : Str} {fig : Figure}
    (hne : label1 ≠ label2) (h : Returned e params params2 fname label1 label2 fig) :
    ∃ h1 h2, entries fig label1 = [h1] ∧ entries fig label2 = [h2] ∧
      curvesLike fig h1 = modelCurves params2 ∧ curvesLike fig h2 = modelCurves params := by
  have hc := curvesLike_eq h
  obtain ⟨obs, ho, rfl⟩ := plot_inv h
  refine ⟨⟨.dashed, .named (chars! "gray"), none, label1⟩, ⟨.solid, .named (chars! "gray"), none, label2⟩, ?_, ?_, (hc _).2 rfl,
    (hc _).1 rfl⟩
  · simp [entries, mainLegend, List.filter_cons, hne.symm]
  · simp [entries, mainLegend, List.filter_cons, hne]

/-- C123: so the legend is right only if the two models are the same on the whole grid; whenever they differ at one plotted mass and time,
no entry labelled `label1` is drawn like the curves of `params`. -/
theorem C123_legend_wrong {e : Env} {params params2 : MZRParams} {fname : Option Str} {label1 label2 : Str} {fig : Figure}
    (hne : label1 ≠ label2) (h : Returned e params params2 fname label1 label2 fig)
    (hdiff : ∃ m ∈ plotMasses, ∃ t ∈ plotTimes, mzr_model m t params ≠ mzr_model m t params2) :
    ∀ h1 ∈ entries fig label1, curvesLike fig h1 ≠ modelCurves params := by
  obtain ⟨a, b, e1, -, c1, -⟩ := C123_legend_swapped hne h
  intro h1 hh
  rw [e1, List.mem_singleton] at hh
  subst hh
  rw [c1]
  intro heq
  obtain ⟨m, hm, t, ht, hd⟩ := hdiff
  unfold modelCurves at heq
  have k := List.map_inj_left.1 heq t ht
  exact hd (List.map_inj_left.1 k m hm).symm

/-- C123: the other legend is right: the entry `z=3` has the colour of the curves at 2 Gyr, and `z=0` that of the curves at 14 Gyr; the three
observed data sets carry the marker and colour of their legend entry. -/
theorem C123_colours {e : Env} {params params2 : MZRParams} {fname : Option Str} {label1 label2 : Str} {fig : Figure}
    (h : Returned e params params2 fname label1 label2 fig) :
    ∃ blue red, fig.legends.head? = some [blue, red] ∧ blue.label = chars! "${\\rm z=0}$" ∧ red.label = chars! "${\\rm z=3}$" ∧
      fig.lines.take 2 = [⟨plotMasses, plotMasses.map fun m => mzr_model m 2 params, .solid, red.color, none⟩,
        ⟨plotMasses, plotMasses.map fun m => mzr_model m 2 params2, .dashed, red.color, none⟩] ∧
      ⟨plotMasses, plotMasses.map fun m => mzr_model m 14 params, .solid, blue.color, none⟩ ∈ fig.lines ∧
      ⟨plotMasses, plotMasses.map fun m => mzr_model m 14 params2, .dashed, blue.color, none⟩ ∈ fig.lines ∧ red.color = e.coolwarm 1 ∧ blue.color = e.coolwarm 0 := by
  obtain ⟨obs, ho, rfl⟩ := plot_inv h
  obtain ⟨t0, t1, t2, t3, t4⟩ := plot_t_arr
  refine ⟨_, _, rfl, rfl, rfl, ?_, ?_, ?_, ?_, ?_⟩
  · simp [curves_eq, plot_curve, t0]
  · simp [curves_eq, plot_curve, t4]
  · simp [curves_eq, plot_curve, t4]
  · simp [colors, linspace, Fin.ext_iff]
  · simp [colors, linspace, Fin.ext_iff]

/-! ### C124: what is drawn, and the effects of a call -/

/-- C124: a figure is returned exactly when matplotlib is installed, the three tables can be read (at least two rows and columns) and the
figure can be written, if a file name is given. -/
theorem C124_returns_iff (e : Env) (params params2 : MZRParams) (fname : Option Str) (label1 label2 : Str) (s : Pyplot) :
    (∃ fig, (make_mzr_comparison_plot e params params2 fname label1 label2 s).1 = .ok fig) ↔
      e.hasMatplotlib = true ∧ (∃ r, GoodTable e fileM18 r) ∧ (∃ r, GoodTable e fileK13 r) ∧ (∃ r, GoodTable e fileG05 r) ∧
      ∀ f, fname = some f → e.writeError f = none := by
  unfold make_mzr_comparison_plot
  by_cases hm : e.hasMatplotlib = true
  · rw [if_neg (by simp [hm])]
    cases ho : observed e with
    | error err =>
      simp only [reduceCtorEq, exists_false, false_iff]
      rintro ⟨-, ⟨r1, h1⟩, ⟨r2, h2⟩, ⟨r3, h3⟩, -⟩
      rw [observed_ok_iff.2 ⟨r1, r2, r3, h1, h2, h3, rfl⟩] at ho
      simp at ho
    | ok obs =>
      obtain ⟨r1, r2, r3, h1, h2, h3, -⟩ := observed_ok_iff.1 ho
      cases fname with
      | none => simp [hm]; exact ⟨⟨_, h1⟩, ⟨_, h2⟩, ⟨_, h3⟩⟩
      | some f =>
        cases hw : e.writeError f with
        | none => simp [hm, hw]; exact ⟨⟨_, h1⟩, ⟨_, h2⟩, ⟨_, h3⟩⟩
        | some err => simp [hw]
  · simp [hm]

/-- C124: the effects of one call.  A file is written only by a call that returns and was given a name, under that name and with the returned
figure; a call that raises writes nothing.  With matplotlib installed every call, also one that raises, leaves one more figure in pyplot's
registry (the function never closes it); without it the call raises `AssertionError` and changes nothing. -/
theorem C124_effects (e : Env) (params params2 : MZRParams) (fname : Option Str) (label1 label2 : Str) (s : Pyplot) :
    let r := make_mzr_comparison_plot e params params2 fname label1 label2 s
    (∀ fig, r.1 = .ok fig → r.2.saved = (fname.map fun f => (f, fig)).toList ++ s.saved) ∧
    (∀ err, r.1 = .error err → r.2.saved = s.saved) ∧
    r.2.openFigures = s.openFigures + (if e.hasMatplotlib then 1 else 0) ∧
    (e.hasMatplotlib = false → r = (.error .assertionError, s)) := by
  unfold make_mzr_comparison_plot
  by_cases hm : e.hasMatplotlib = true
  · rw [if_neg (by simp [hm])]
    cases ho : observed e with
    | error err => simp [hm]
    | ok obs =>
      cases fname with
      | none => simp [hm]
      | some f =>
        cases hw : e.writeError f with
        | none => simp [hm, hw]
        | some err => simp [hm, hw]
  · simp [hm]

/-- one call of a history: all the arguments -/
structure PlotCall where
  params : MZRParams
  params2 : MZRParams
  fname : Option Str
  label1 : Str
  label2 : Str

/-- a sequence of calls, exceptions caught by the caller -/
noncomputable def runPlots (e : Env) (cs : List PlotCall) (s : Pyplot) : Pyplot :=
  cs.foldl (fun s c => (make_mzr_comparison_plot e c.params c.params2 c.fname c.label1 c.label2 s).2) s

/-- C124: after any sequence of calls, pyplot keeps one figure alive per call, whether or not the calls raised, and the file list has at most one entry per call
that was given a name. -/
theorem C124_figures_leak (e : Env) (hm : e.hasMatplotlib = true) (cs : List PlotCall) (s : Pyplot) :
    (runPlots e cs s).openFigures = s.openFigures + cs.length ∧
    (runPlots e cs s).saved.length ≤ s.saved.length + (cs.filter fun c => c.fname.isSome).length := by
  induction cs generalizing s with
  | nil => simp [runPlots]
  | cons c cs ih =>
    have hc := C124_effects e c.params c.params2 c.fname c.label1 c.label2 s
    obtain ⟨i1, i2⟩ := ih (make_mzr_comparison_plot e c.params c.params2 c.fname c.label1 c.label2 s).2
    simp only at hc
    obtain ⟨h1, h2, h3, -⟩ := hc
    constructor
    · change (runPlots e cs _).openFigures = _
      rw [i1, h3]; simp [hm]; omega
    · change (runPlots e cs _).saved.length ≤ _
      refine i2.trans ?_
      cases hr : (make_mzr_comparison_plot e c.params c.params2 c.fname c.label1 c.label2 s).1 with
      | error err =>
        rw [h2 err hr, List.filter_cons]; split_ifs <;> simp
      | ok fig =>
        rw [h1 fig hr]
        cases hf : c.fname with
        | none => simp [List.filter_cons, hf]
        | some f => simp [List.filter_cons, hf]; omega

theorem everySecond_getElem? {α : Type} : ∀ (l : List α) (k : ℕ), (everySecond l)[k]? = l[2 * k]?
  | [], k => by simp [everySecond]
  | [x], 0 => by simp [everySecond]
  | [x], k + 1 => by simp [everySecond, show 2 * (k + 1) = 2 * k + 1 + 1 by ring]
  | x :: y :: xs, 0 => by simp [everySecond]
  | x :: y :: xs, k + 1 => by
    simp [everySecond, show 2 * (k + 1) = 2 * k + 1 + 1 by ring, everySecond_getElem? xs k]

/-- C124: the observed points.  In every returned figure the last three artists are the three data sets; the `k`-th point of each is row `2k` of the
file (odd rows are not drawn), at the metallicity `second column + log10(0.012)`. -/
theorem C124_points {e : Env} {params params2 : MZRParams} {fname : Option Str} {label1 label2 : Str} {fig : Figure}
    (h : Returned e params params2 fname label1 label2 fig) :
    ∃ (r1 r2 r3 : List (List ℝ)) (a b c : Line), GoodTable e fileM18 r1 ∧ GoodTable e fileK13 r2 ∧ GoodTable e fileG05 r3 ∧
      fig.lines.drop 10 = [a, b, c] ∧ a.marker = some '*' ∧ b.marker = some 'v' ∧ c.marker = some 'd' ∧
      ∀ (r : List (List ℝ)) (l : Line), ((r, l) = (r1, a) ∨ (r, l) = (r2, b) ∨ (r, l) = (r3, c)) →
        l.ls = .none ∧ ∀ k, l.x[k]? = r[2 * k]?.map (·.getD 0 0) ∧ l.y[k]? = r[2 * k]?.map (fun row => row.getD 1 0 + Real.logb 10 0.012) := by
  obtain ⟨obs, ho, rfl⟩ := plot_inv h
  obtain ⟨r1, r2, r3, h1, h2, h3, rfl⟩ := observed_ok_iff.1 ho
  refine ⟨r1, r2, r3, _, _, _, h1, h2, h3, by rw [curves_eq]; rfl, rfl, rfl, rfl, ?_⟩
  rintro r l (hl | hl | hl) <;> cases hl <;>
    exact ⟨rfl, fun k => ⟨by simp [markers, everySecond_getElem?], by
      simp [markers, everySecond_getElem?, LGMET_SOLAR, Jnp.log10]⟩⟩

/-! ### Concrete cases -/

/-- an installation with matplotlib, the three tables with two and three rows, and a writable disk -/
noncomputable def exPlotEnv : Env where
  hasMatplotlib := true
  coolwarm := fun x => .rgba x 0 0 1
  metallicityDir := chars! "/dsps/metallicity"
  loadtxt := fun _ => .ok [[11.9, 0.29], [11.7, 0.28], [11.5, 0.27]]
  writeError := fun _ => none

theorem exPlot_good (bn : Str) : GoodTable exPlotEnv bn [[11.9, 0.29], [11.7, 0.28], [11.5, 0.27]] :=
  ⟨rfl, by simp, by simp⟩

theorem exPlot_returned (p : MZRParams) :
    ∃ fig, Returned exPlotEnv p DEFAULT_MZR_PARAMS (some (chars! "f.png")) (chars! "new") (chars! "default") fig := by
  obtain ⟨fig, h⟩ := (C124_returns_iff exPlotEnv p DEFAULT_MZR_PARAMS (some (chars! "f.png")) (chars! "new") (chars! "default")
    ⟨0, []⟩).2 ⟨rfl, ⟨_, exPlot_good _⟩, ⟨_, exPlot_good _⟩, ⟨_, exPlot_good _⟩, fun _ _ => rfl⟩
  exact ⟨fig, _, h⟩

/-- a model that differs from the default one only in the normalisation -/
noncomputable def exPlotParams : MZRParams := { DEFAULT_MZR_PARAMS with mzr_t0_ytp := -0.5 }

/-- for that model the legend is wrong, the colours are right and the points are as described -/
example : ∃ fig, Returned exPlotEnv exPlotParams DEFAULT_MZR_PARAMS (some (chars! "f.png")) (chars! "new") (chars! "default") fig ∧
    (∀ h1 ∈ entries fig (chars! "new"), curvesLike fig h1 ≠ modelCurves exPlotParams) ∧ (fig.lines.drop 10).length = 3 := by
  obtain ⟨fig, h⟩ := exPlot_returned exPlotParams
  refine ⟨fig, h, C123_legend_wrong (by decide) h ⟨2, ?_, 2, by simp [plotTimes], ?_⟩, ?_⟩
  · exact List.mem_map.2 ⟨0, by simp, by norm_num⟩
  · simp only [mzr_model, mzr_model_t0, Utils.sig_slope, exPlotParams, DEFAULT_MZR_PARAMS]
    intro hh
    norm_num at hh
  · obtain ⟨_, _, _, a, b, c, _, _, _, hd, -⟩ := C124_points h
    rw [hd]; rfl

/-- twenty-one calls leave twenty-one figures open -/
example (c : PlotCall) : (runPlots exPlotEnv (List.replicate 21 c) ⟨0, []⟩).openFigures = 21 := by
  rw [(C124_figures_leak exPlotEnv rfl _ _).1]; simp

end Dsps.Props
