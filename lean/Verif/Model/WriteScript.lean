/- Model of scripts/write_fsps_data_to_disk.py as a sequence of effects on the output file, with crash points -/
import Verif.Model.LoadSspData

namespace Dsps.WriteScript
open Py Dsps.DataDefaults Dsps.LoadFilterData Dsps.LoadSspData

/-- The output path on disk: absent, present but not readable as hdf5, or an hdf5 file. -/
inductive File where
  | absent
  | unreadable
  | hdf (h : Hdf)

/-- What the script does to the output file: opening it in mode `"w"` (line 32, truncates) and creating one dataset
(lines 34, 40, 43, 44).  Closing the file has no further effect on the contents. -/
inductive Cmd where
  | open_w
  | create (key : Str) (data : Dset)

/-- The effect of one command.  A dataset that cannot be created leaves the file as it is. -/
def Cmd.run : File → Cmd → File
  | _, .open_w => .hdf []
  | .hdf h, .create k d =>
    match h.create k d with
    | .ok h' => .hdf h'
    | .error _ => .hdf h
  | f, .create _ _ => f

/-- `/repo/scripts/write_fsps_data_to_disk.py:16-23`: the optional command line arguments, `None` when not given. -/
structure Args where
  gas_logz : Option ℝ := none
  gas_logu : Option ℝ := none

/-- `/repo/scripts/write_fsps_data_to_disk.py:25-29` -/
def kwargs (args : Args) : List (Str × ℝ) :=
  let kw := []
  let kw := match args.gas_logz with
    | some z => kw ++ [(chars! "gas_logz", z)]
    | none => kw
  match args.gas_logu with
  | some u => kw ++ [(chars! "gas_logu", u)]
  | none => kw

/-- `/repo/scripts/write_fsps_data_to_disk.py:32-44`: the commands issued, in order, and how the block ends.  (A dataset is
never created twice: the seven names differ; so no `create` raises.) -/
def write_trace (ssp_data : SSPData) : List Cmd × Except PyErr Unit :=
  let four := Cmd.open_w :: (DEFAULT_SSP_KEYS.zip (firstFour ssp_data)).map fun ka => Cmd.create ka.1 ka.2
  match emline_arrays ssp_data.ssp_emline_wave with
  | .error e => (four, .error e)
  | .ok (names, waves) =>
    match npBytes names with
    | .error e => (four, .error e)
    | .ok b =>
      let six := four ++ [Cmd.create (chars! "ssp_emline_name") b, Cmd.create (chars! "ssp_emline_wave") (.d1 waves)]
      match ssp_data.ssp_emline_luminosity with
      | none => (six, .error .typeError)
      | some lum => (six ++ [Cmd.create (chars! "ssp_emline_luminosity") (.d3 lum)], .ok ())

/-- `/repo/scripts/write_fsps_data_to_disk.py:31-44`: the whole script, for `retrieve` the outcome of
`retrieve_ssp_data_from_fsps(**kwargs)` (see `RetrieveFsps`). -/
def script (retrieve : List (Str × ℝ) → Except PyErr SSPData) (args : Args) : List Cmd × Except PyErr Unit :=
  match retrieve (kwargs args) with
  | .error e => ([], .error e)
  | .ok ssp_data => write_trace ssp_data

/-- The file after the first `k` commands. -/
def after (f : File) (cmds : List Cmd) (k : ℕ) : File := (cmds.take k).foldl Cmd.run f

/-- What can be on disk when the script stops after `k` commands: exactly their effect if the file is closed in order (the
`with` block does this for every exception, in particular for KeyboardInterrupt and for a full disk); an hdf5 file that is
not readable if the process is killed while the file is open. -/
inductive Stopped (f : File) (cmds : List Cmd) (k : ℕ) : File → Prop
  | closed : Stopped f cmds k (after f cmds k)
  | killed (hk : 0 < k) : Stopped f cmds k .unreadable

/-- A file system with `f` at path `p`, as the loader sees it. -/
def worldWith (w : World) (p : Str) (f : File) : World :=
  { w with
    isfile := fun q => if q = p then (match f with | .absent => false | _ => true) else w.isfile q
    hdf := fun q => if q = p then (match f with | .hdf h => some h | _ => none) else w.hdf q }

/-- `load_ssp_templates(fn=p)` when `f` is at `p` -/
noncomputable def load [XID] (fake : Except PyErr SSPData) (w : World) (p : Str) (f : File) : Except PyErr SSPData :=
  load_ssp_templates fake (worldWith w p f) (some p) none [] false

end Dsps.WriteScript
