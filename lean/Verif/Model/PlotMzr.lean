import Verif.Model.Umzr
import Verif.Py

/-! Model of `/repo/dsps/metallicity/diagnostics/plot_mzr.py` (line numbers refer to that file).

What matplotlib does with the figure (rasterising) is not modelled; the figure is the list of artists that the function adds,
with the attributes it passes.  `ax.plot(x, y)` without a format string draws with the default line style `-` (matplotlib's
`lines.linestyle`).  `cm.coolwarm`, `numpy.loadtxt` and the file system are parameters. -/
namespace Dsps.PlotMzr
open Py Jnp Dsps.Umzr

/-- a colour: a value of the colour map, or a colour given by name (`"k"`, `"gray"`, `MGREEN`, ...) -/
inductive Color
  | rgba (r g b a : ℝ)
  | named (s : Str)

/-- matplotlib's line styles `-`, `--` and `None` -/
inductive LineStyle
  | solid | dashed | none
  deriving DecidableEq

/-- a `Line2D` with data: `ax.plot(x, y, ...)` -/
structure Line where
  x : List ℝ
  y : List ℝ
  ls : LineStyle
  color : Color
  marker : Option Char

/-- a `Line2D([], [], ...)` used as a legend handle -/
structure Handle where
  ls : LineStyle
  color : Color
  marker : Option Char
  label : Str

/-- the axes of the returned figure -/
structure Figure where
  lines : List Line
  /-- the boxes drawn by `ax.legend` -/
  legends : List (List Handle)
  xlim : ℝ × ℝ
  ylim : ℝ × ℝ

/-- What the function reads from its surroundings.
`loadtxt` is the parsed table (list of rows of equal length) of a file, or the exception of opening or parsing it;
`writeError` is the exception of `savefig` to that name, if it fails. -/
structure Env where
  hasMatplotlib : Bool
  coolwarm : ℝ → Color
  /-- plot_mzr.py:19 `os.path.dirname(_THIS_DRNAME)`, the directory `dsps/metallicity` -/
  metallicityDir : Str
  loadtxt : Str → Except PyErr (List (List ℝ))
  writeError : Str → Option PyErr

/-- pyplot's registry (number of figures it keeps alive) and the files written so far, last first. -/
structure Pyplot where
  openFigures : ℕ
  saved : List (Str × Figure)

/-- plot_mzr.py:21 -/
def MGREEN : Color := .named (chars! "#2ca02c")
/-- plot_mzr.py:22 -/
def MPURPLE : Color := .named (chars! "#9467bd")

/-- plot_mzr.py:50 -/
abbrev n_t : ℕ := 5
/-- plot_mzr.py:51 `cm.coolwarm(np.linspace(1, 0, n_t))` -/
noncomputable def colors (e : Env) : Fin n_t → Color := fun i => e.coolwarm (linspace 1 0 3 i)
/-- plot_mzr.py:52 -/
noncomputable def t_arr : Fin n_t → ℝ := linspace 2 14 3
/-- plot_mzr.py:54-55, `n_sm = 1000` -/
noncomputable def logsm_arr : Fin (998 + 2) → ℝ := linspace 2 14 998

/-- plot_mzr.py:62-64: `ax.plot(logsm_arr, umzr.mzr_model(logsm_arr, t_arr[it], *params), color=colors[it])` (`ls = solid`) and
65-70, the same with the format `"--"` (`ls = dashed`) -/
noncomputable def curve (e : Env) (p : MZRParams) (ls : LineStyle) (it : Fin n_t) : Line :=
  ⟨List.ofFn logsm_arr, List.ofFn fun i => mzr_model (logsm_arr i) (t_arr it) p, ls, colors e it, none⟩

/-- plot_mzr.py:61-70, the loop -/
noncomputable def curves (e : Env) (params params2 : MZRParams) : List Line :=
  (List.ofFn fun it => [curve e params .solid it, curve e params2 .dashed it]).flatten

/-- plot_mzr.py:72-74 `drn` -/
def drn (e : Env) : Str := pathJoin (pathJoin e.metallicityDir (chars! "tests")) (chars! "testing_data")

/-- `a[::2]` -/
def everySecond {α : Type} : List α → List α
  | [] => []
  | [x] => [x]
  | x :: _ :: xs => x :: everySecond xs

/-- `data[:, k]` for `data = np.loadtxt(...)`.  `loadtxt` squeezes: a table with fewer than two rows or fewer than two columns is
a one-dimensional (or zero-dimensional) array, for which `[:, k]` is an `IndexError`, and so is a column that does not exist. -/
def column (rows : List (List ℝ)) (k : ℕ) : Except PyErr (List ℝ) :=
  if rows.length < 2 ∨ rows.any (fun r => r.length < 2) then .error .indexError
  else if rows.any (fun r => r.length ≤ k) then .error .indexError
  else .ok (rows.map fun r => r.getD k 0)

/-- plot_mzr.py:75-83 (and 85-98, 100-113): one observed data set -/
noncomputable def points (e : Env) (bn : Str) (color : Color) (marker : Char) : Except PyErr Line := do
  let fn := pathJoin (drn e) bn
  let data ← e.loadtxt fn
  let lgsm_msun ← column data 0
  let lgz_zsun ← column data 1
  let lgzmet := lgz_zsun.map (· + LGMET_SOLAR)
  return ⟨everySecond lgsm_msun, everySecond lgzmet, .none, color, some marker⟩

/-- plot_mzr.py:115-116: the legend of the colours (handles of line 149) -/
noncomputable def redshiftLegend (e : Env) : List Handle :=
  let red_line : Handle := ⟨.solid, colors e 0, none, chars! "${\\rm z=3}$"⟩
  let blue_line : Handle := ⟨.solid, colors e 4, none, chars! "${\\rm z=0}$"⟩
  [blue_line, red_line]

/-- plot_mzr.py:117-147: the main legend (handles of line 152) -/
def mainLegend (label1 label2 : Str) : List Handle :=
  let solid_line : Handle := ⟨.solid, .named (chars! "gray"), none, label2⟩
  let dashed_line : Handle := ⟨.dashed, .named (chars! "gray"), none, label1⟩
  let black_star : Handle := ⟨.none, .named (chars! "k"), some '*', chars! "${\\rm Maiolino}$+$18\\ (z=0)$"⟩
  let green_triangle : Handle := ⟨.none, MGREEN, some 'v', chars! "${\\rm Kirby}$+$13\\ (z=0)$"⟩
  let purple_square : Handle := ⟨.none, MPURPLE, some 'd', chars! "${\\rm Gallazzi}$+$05\\ (z=0)$"⟩
  [purple_square, black_star, green_triangle, solid_line, dashed_line]

/-- plot_mzr.py:75-113: the three data sets, in order -/
noncomputable def observed (e : Env) : Except PyErr (List Line) := do
  let m18 ← points e (chars! "maiolino_etal18_mzr.dat") (.named (chars! "k")) '*'
  let k13 ← points e (chars! "kirby_etal13_mzr.dat") MGREEN 'v'
  let g05 ← points e (chars! "galazzi_etal05_mzr.dat") MPURPLE 'd'
  return [m18, k13, g05]

/-- plot_mzr.py:25-163 `make_mzr_comparison_plot`: the result (or exception) and pyplot's state afterwards. -/
noncomputable def make_mzr_comparison_plot (e : Env) (params params2 : MZRParams) (fname : Option Str) (label1 label2 : Str)
    (s : Pyplot) : Except PyErr Figure × Pyplot :=
  -- line 48
  if ¬ e.hasMatplotlib then (.error .assertionError, s)
  else
    -- line 57: the figure is registered with pyplot from here on
    let s := { s with openFigures := s.openFigures + 1 }
    match observed e with
    | .error err => (.error err, s)
    | .ok obs =>
      let fig : Figure :=
        ⟨curves e params params2 ++ obs, [redshiftLegend e, mainLegend label1 label2], (4.1, 12.4), (-7.5, -1.1)⟩
      -- lines 159-163
      match fname with
      | none => (.ok fig, s)
      | some f =>
        match e.writeError f with
        | none => (.ok fig, { s with saved := (f, fig) :: s.saved })
        | some err => (.error err, s)

end Dsps.PlotMzr
