/- Model of dsps/data_loaders/load_emline_info.py -/
import Verif.Model.DataDefaults

namespace Dsps.LoadEmlineInfo
open Py Dsps.DataDefaults

/-- `/repo/dsps/data_loaders/load_emline_info.py:17-18`: the chain of `replace` calls. -/
def sanitize (a : Str) : Str :=
  let b := replace (replace (replace a '-' ['_']) ' ' ['_']) '.' ['p']
  replace (replace b '[' []) ']' []

/-- `/repo/dsps/data_loaders/load_emline_info.py:14-18`: one line of the file.  `_line_wave, _a = line.split(",")` raises
`ValueError` unless there are exactly two pieces; `float` is a parameter. -/
def parse_line {F : Type} (float : Str → Except PyErr F) (raw_line : Str) : Except PyErr (Str × F) := do
  let line := strip raw_line
  match split line ',' with
  | [_line_wave, _a] =>
    let line_wave ← float _line_wave
    return (sanitize _a, line_wave)
  | _ => throw .valueError

/-- `/repo/dsps/data_loaders/load_emline_info.py:13-21`: the loop, with its two accumulators. -/
def read_loop {F : Type} (float : Str → Except PyErr F) :
    List Str → List (Str × F) → List F → Except PyErr (List (Str × F) × List F)
  | [], emline_dict, line_wave_collector => .ok (emline_dict, line_wave_collector)
  | raw_line :: rest, emline_dict, line_wave_collector => do
    let (line_name, line_wave) ← parse_line float raw_line
    read_loop float rest (dictSet emline_dict line_name line_wave) (line_wave_collector ++ [line_wave])

/-- `/repo/dsps/data_loaders/load_emline_info.py:8-27` `read_emlines_info_fsps(fn, testmode=True)` applied to the contents
of the file; `testmode=False` returns the first component. -/
def read_emlines_info_fsps {F : Type} (float : Str → Except PyErr F) (contents : Str) :
    Except PyErr (List (Str × F) × List F) :=
  read_loop float (fileLines contents) [] []

/-- numpy integer-array indexing `a[indx]` of a one-dimensional array. -/
def take {α : Type*} (a : List α) (indx : List ℕ) : Except PyErr (List α) :=
  indx.mapM fun i => match a[i]? with
    | some v => .ok v
    | none => .error .indexError

/-- `/repo/dsps/data_loaders/load_emline_info.py:30-60` `get_subset_emline_data`.  `np.array([])` has dtype float64, so
an empty list of names fails at the first indexing operation (`IndexError`). -/
def get_subset_emline_data [XID] (ssp_data : SSPData) (emline_names : List Str) : Except PyErr SSPData := do
  -- lines 47-49
  let indx_lines ← emline_names.mapM fun name => match ssp_data.ssp_emline_wave with
    | some nt => index nt.fields name
    | none => .error .attributeError
  -- line 50
  if indx_lines = [] then throw .indexError
  let line_wave ← match ssp_data.ssp_emline_wave with
    | some nt => take nt.values indx_lines
    | none => .error .indexError
  -- lines 51-52
  let emLineWave ← namedtupleType emline_names
  let line_wave ← construct emLineWave line_wave
  -- line 54
  let line_lum ← match ssp_data.ssp_emline_luminosity with
    | some lum => lum.mapM fun per_met => per_met.mapM fun row => take row indx_lines
    | none => .error .typeError
  -- lines 56-60
  return { ssp_data with ssp_emline_wave := some line_wave, ssp_emline_luminosity := some line_lum }

end Dsps.LoadEmlineInfo
