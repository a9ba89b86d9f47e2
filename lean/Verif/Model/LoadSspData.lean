/- Model of dsps/data_loaders/load_ssp_data.py and of scripts/write_fsps_data_to_disk.py -/
import Verif.Model.LoadFilterData
import Verif.Model.Constants

namespace Dsps.LoadSspData
open Py Dsps.DataDefaults Dsps.LoadFilterData

/-- `/repo/dsps/data_loaders/load_ssp_data.py:59-72`: which file is read. -/
def resolve (w : World) (fn drn : Option Str) (bn : Str) : Except PyErr Str := do
  let fn ← match fn with
    | some fn => pure fn
    | none =>
      let drn ← match drn with
        | some drn => pure drn
        | none =>
          match w.environ (chars! "DSPS_DRN") with
          | none => throw .valueError
          | some drn => pure drn
      pure (pathJoin drn bn)
  if w.isfile fn then pure fn else throw .assertionError

/-- reading a dataset that should be a three-dimensional float array -/
def asD3 : Dset → Except PyErr (List (List (List ℝ)))
  | .d3 a => .ok a
  | _ => .error .typeError

/-- reading a dataset of byte strings: numpy drops the padding (trailing NUL bytes) of fixed-width strings -/
def asBytes : Dset → Except PyErr (List (List ℕ))
  | .bytes _ a => .ok (a.map fun b => (b.reverse.dropWhile (· = 0)).reverse)
  | _ => .error .typeError

/-- `b.decode("utf-8")` on ASCII bytes.  Simplification: multi-byte sequences, which the writer script cannot produce,
are rejected. -/
def decode (b : List ℕ) : Except PyErr Str :=
  if b.all (· < 128) then .ok (b.map Char.ofNat) else .error .unicodeError

/-- `/repo/dsps/data_loaders/load_ssp_data.py:74-94`: the contents of the open file become an `SSPData`. -/
noncomputable def read_ssp [XID] (hdf : Hdf) : Except PyErr SSPData := do
  -- lines 76-77, one iteration per key of DEFAULT_SSP_KEYS
  let d ← hdf.get (chars! "ssp_lgmet")
  let ssp_lgmet ← asD1 d
  let d ← hdf.get (chars! "ssp_lg_age_gyr")
  let ssp_lg_age_gyr ← asD1 d
  let d ← hdf.get (chars! "ssp_wave")
  let ssp_wave ← asD1 d
  let d ← hdf.get (chars! "ssp_flux")
  let ssp_flux ← asD3 d
  -- line 79
  if (hdf.map Prod.fst).contains (chars! "ssp_emline_name") then
    -- lines 81-85
    let d ← hdf.get (chars! "ssp_emline_name")
    let bs ← asBytes d
    let ssp_emline_name ← bs.mapM decode
    let d ← hdf.get (chars! "ssp_emline_wave")
    let ssp_emline_wave ← asD1 d
    let d ← hdf.get (chars! "ssp_emline_luminosity")
    let lum ← asD3 d
    let ssp_emline_luminosity := lum.map (List.map (List.map fun x => x * Constants.L_SUN_CGS))
    -- lines 87-91
    let emLineWave ← namedtupleType ssp_emline_name
    let nt ← construct emLineWave ssp_emline_wave
    return { ssp_lgmet, ssp_lg_age_gyr, ssp_wave, ssp_flux,
             ssp_emline_wave := some nt, ssp_emline_luminosity := some ssp_emline_luminosity }
  else
    -- line 94: the optional fields keep their default None
    return { ssp_lgmet, ssp_lg_age_gyr, ssp_wave, ssp_flux }

/-- `/repo/dsps/data_loaders/load_ssp_data.py:13-94` `load_ssp_templates`; `fake` is the outcome of
`load_fake_ssp_data()` (see `RetrieveFake`). -/
noncomputable def load_ssp_templates [XID] (fake : Except PyErr SSPData) (w : World) (fn drn : Option Str) (bn : Str)
    (dummy : Bool) : Except PyErr SSPData :=
  if dummy then fake
  else do
    let fn ← resolve w fn drn bn
    match w.hdf fn with
    | none => throw .osError
    | some hdf => read_ssp hdf

/-- `s.encode("ascii")` as done by `np.array(names, dtype="S")` -/
def encode (s : Str) : Except PyErr (List ℕ) :=
  if s.all isAscii then .ok (s.map Char.toNat) else .error .unicodeError

/-- `np.array(names, dtype="S")`: the item width is that of the longest one (at least 1); every item is stored in exactly
that many bytes, padded with NUL or cut off. -/
def npBytes (names : List Str) : Except PyErr Dset := do
  let bs ← names.mapM encode
  let width := bs.foldl (fun m b => max m b.length) 1
  return .bytes width (bs.map fun b => (b ++ List.replicate (width - b.length) 0).take width)

/-- The fields of an `SSPData` in tuple order (the four arrays that `zip` pairs with `DEFAULT_SSP_KEYS`). -/
def firstFour (d : SSPData) : List Dset := [.d1 d.ssp_lgmet, .d1 d.ssp_lg_age_gyr, .d1 d.ssp_wave, .d3 d.ssp_flux]

/-- `/repo/scripts/write_fsps_data_to_disk.py:33-34` -/
def write_arrays : List (Str × Dset) → Hdf → Hdf × Except PyErr Unit
  | [], hdf => (hdf, .ok ())
  | (key, arr) :: rest, hdf =>
    match hdf.create key arr with
    | .ok hdf' => write_arrays rest hdf'
    | .error e => (hdf, .error e)

/-- `/repo/scripts/write_fsps_data_to_disk.py:36-39` (reading names and wavelengths, before anything is written) -/
def emline_arrays (nt : Option NamedTuple) : Except PyErr (List Str × List ℝ) :=
  match nt with
  | none => .error .attributeError
  | some nt => do
    let ssp_emline_name := nt.fields
    let ssp_emline_wave ← ssp_emline_name.mapM fun name => nt.getattr name
    return (ssp_emline_name, ssp_emline_wave)

/-- `/repo/scripts/write_fsps_data_to_disk.py:40-44` -/
def write_emlines (names : List Str) (waves : List ℝ) (lum : Option (List (List (List ℝ)))) (hdf : Hdf) :
    Hdf × Except PyErr Unit :=
  match npBytes names with
  | .error e => (hdf, .error e)
  | .ok d =>
    match lum with
    | some lum =>
      write_arrays [(chars! "ssp_emline_name", d), (chars! "ssp_emline_wave", .d1 waves),
        (chars! "ssp_emline_luminosity", .d3 lum)] hdf
    | none =>
      -- h5py cannot store None: TypeError after the first two datasets
      match write_arrays [(chars! "ssp_emline_name", d), (chars! "ssp_emline_wave", .d1 waves)] hdf with
      | (hdf, .ok ()) => (hdf, .error .typeError)
      | r => r

/-- `/repo/scripts/write_fsps_data_to_disk.py:32-44`: the file as left on disk (also when an exception escapes: `with`
closes the file, datasets already created stay) and how the script ended.  `"ssp_emline_wave" in ssp_data._fields` is true
for every `SSPData`, whatever the field holds, so there is no other branch. -/
def write_ssp_data (ssp_data : SSPData) : Hdf × Except PyErr Unit :=
  match write_arrays (DEFAULT_SSP_KEYS.zip (firstFour ssp_data)) [] with
  | (hdf, .error e) => (hdf, .error e)
  | (hdf, .ok ()) =>
    match emline_arrays ssp_data.ssp_emline_wave with
    | .error e => (hdf, .error e)
    | .ok (names, waves) => write_emlines names waves ssp_data.ssp_emline_luminosity hdf

end Dsps.LoadSspData
