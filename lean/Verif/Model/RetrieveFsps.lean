/- Model of dsps/data_loaders/retrieve_fsps_data.py -/
import Verif.Model.DataDefaults
import Verif.Jnp

namespace Dsps.RetrieveFsps
open Py Dsps.DataDefaults Jnp

/-- `line.split(",")[i]` -/
def piece (line : Str) (i : ℕ) : Except PyErr Str :=
  match (split line ',')[i]? with
  | some p => .ok p
  | none => .error .indexError

/-- `/repo/dsps/data_loaders/retrieve_fsps_data.py:21-29` `get_fsps_emline_info` applied to the file contents; `float` is
numpy's string-to-float64 conversion. -/
def get_fsps_emline_info {F : Type} (float : Str → Except PyErr F) (contents : Str) :
    Except PyErr (List F × List Str) := do
  let lines := (fileLines contents).map strip
  let w ← lines.mapM fun line => piece line 0
  let ref_emline_wave ← w.mapM float
  let ref_emline_name ← lines.mapM fun line => piece line 1
  return (ref_emline_wave, ref_emline_name)

/-- `np.isclose(a, b, atol=0, rtol=1e-6)` for finite numbers: `|a-b| <= atol + rtol*|b|` -/
def IsClose (a b : ℝ) : Prop := |a - b| ≤ 0 + 0.000001 * |b|

open Classical in
/-- `/repo/dsps/data_loaders/retrieve_fsps_data.py:32-46` `_get_matched_emline_name`; the two arrays are given as a list
of pairs. -/
noncomputable def get_matched_emline_name (ref : List (ℝ × Str)) (find_emline_wave : ℝ) : Str :=
  let isclose := ref.filter fun r => IsClose r.1 find_emline_wave
  match isclose with
  | [r] => r.2
  | _ => []

/-- `/repo/dsps/data_loaders/retrieve_fsps_data.py:55-62` -/
def sanitize (name : Str) : Str :=
  replace (replace (replace (replace (replace name '.' ['p']) '-' ['_']) ' ' ['_']) '[' []) ']' []

/-- `/repo/dsps/data_loaders/retrieve_fsps_data.py:49-66` `_get_emline_wave_namedtuple`, given the reference table read at
line 50. -/
noncomputable def get_emline_wave_namedtuple [XID] (ref : List (ℝ × Str)) (emline_wave : List ℝ) :
    Except PyErr NamedTuple := do
  let emline_name := emline_wave.map (get_matched_emline_name ref)
  let emline_name := emline_name.map sanitize
  let emLineWave ← namedtupleType emline_name
  construct emLineWave emline_wave

/-- A `fsps.StellarPopulation` object, as far as dsps looks at it. -/
structure StellarPopulation where
  zlegend : List ℝ
  log_age : List ℝ
  /-- `sp.get_spectrum()` -/
  spectrum : List ℝ × List (List ℝ)
  /-- `sp.emline_luminosity`, if the attribute exists -/
  emline_luminosity : Option (List (List ℝ))
  emline_wavelengths : List ℝ

/-- python-fsps: the constructor with `zcontinuous=0`; `none` arguments are those not passed.  `κ` are the remaining keyword
arguments.  Simplification: the result is a function of the arguments (no hidden state, no exceptions). -/
abbrev Fsps (κ : Type*) := (zmet : Option ℕ) → (add_neb_emission : Option Bool) → κ → StellarPopulation

/-- `np.array(list_of_matrices)`: `ValueError` if the shapes differ. -/
def stack3 (ms : List (List (List ℝ))) : Except PyErr (List (List (List ℝ))) :=
  match ms with
  | [] => .ok []
  | m :: rest => if ∀ m' ∈ rest, m'.map List.length = m.map List.length then .ok ms else .error .valueError

/-- The variables of the loop: `sp`, `_wave` (unbound before the first iteration) and the two collectors; the second one
is unbound (`none`) unless line 126 ran. -/
structure LoopState where
  sp : StellarPopulation
  wave : Option (List ℝ)
  spectrum_collector : List (List (List ℝ))
  emline_collector : Option (List (List (List ℝ)))

/-- `/repo/dsps/data_loaders/retrieve_fsps_data.py:127-139`: one iteration. -/
def loop_body {κ : Type*} (fsps : Fsps κ) (add_neb_emission : Bool) (kwargs : κ) (s : LoopState) (zmet_indx : ℕ) :
    Except PyErr LoopState :=
  let sp := fsps (some zmet_indx) (some add_neb_emission) kwargs
  let s := { s with sp := sp, wave := some sp.spectrum.1,
                    spectrum_collector := s.spectrum_collector ++ [sp.spectrum.2] }
  match sp.emline_luminosity with
  | none => .ok s
  | some lum =>
    match s.emline_collector with
    | none => .error .nameError
    | some c => .ok { s with emline_collector := some (c ++ [lum]) }

/-- `/repo/dsps/data_loaders/retrieve_fsps_data.py:69-158` `retrieve_ssp_data_from_fsps` with python-fsps installed; `ref`
is the packaged reference table. -/
noncomputable def retrieve_ssp_data_from_fsps [XID] {κ : Type*} (ref : List (ℝ × Str)) (fsps : Fsps κ)
    (add_neb_emission : Bool) (kwargs : κ) : Except PyErr SSPData := do
  let sp := fsps none none kwargs
  let ssp_lgmet := sp.zlegend.map log10
  let ssp_lg_age_gyr := sp.log_age.map fun a => a - 9
  let s : LoopState := ⟨sp, none, [], if sp.emline_luminosity.isSome then some [] else none⟩
  let s ← (List.range' 1 ssp_lgmet.length).foldlM (loop_body fsps add_neb_emission kwargs) s
  let ssp_wave ← match s.wave with
    | some w => pure w
    | none => throw .nameError
  let ssp_flux ← stack3 s.spectrum_collector
  if s.sp.emline_luminosity.isSome then
    let nt ← get_emline_wave_namedtuple ref s.sp.emline_wavelengths
    let lum ← match s.emline_collector with
      | some c => stack3 c
      | none => throw .nameError
    return { ssp_lgmet, ssp_lg_age_gyr, ssp_wave, ssp_flux, ssp_emline_wave := some nt, ssp_emline_luminosity := some lum }
  else
    return { ssp_lgmet, ssp_lg_age_gyr, ssp_wave, ssp_flux }

end Dsps.RetrieveFsps
