/- Model of dsps/data_loaders/load_filter_data.py -/
import Verif.Model.DataDefaults
import Verif.Jnp

namespace Dsps.LoadFilterData
open Py Dsps.DataDefaults Jnp

/-- `/repo/dsps/data_loaders/load_filter_data.py:14` -/
noncomputable def TOL : ℝ := 0.01

/-- `/repo/dsps/data_loaders/load_filter_data.py:55-76`: which file is read. -/
def resolve (w : World) (fn bn_pat drn : Option Str) : Except PyErr Str := do
  let fn ← match fn with
    | some fn => pure fn
    | none =>
      let drn ← match drn with
        | some drn => pure drn
        | none =>
          match w.environ (chars! "DSPS_DRN") with
          | none => throw .valueError
          | some drn =>
            let drn := pathJoin drn (chars! "filters")
            if w.isdir drn then pure drn else throw .assertionError
      let bn_pat ← match bn_pat with
        | some p => pure p
        | none => throw .typeError
      let fn_list := w.glob (pathJoin drn bn_pat)
      if fn_list.length = 0 then throw .assertionError
      if ¬ fn_list.length < 2 then throw .assertionError
      match fn_list with
      | f :: _ => pure f
      | [] => throw .assertionError
  if w.isfile fn then pure fn else throw .assertionError

/-- `a.min()`: `ValueError` on an empty array. -/
noncomputable def minArr (a : List ℝ) : Except PyErr ℝ :=
  match a with
  | [] => .error .valueError
  | x :: xs => .ok (xs.foldl min x)

/-- reading a dataset that should be a one-dimensional float array -/
def asD1 : Dset → Except PyErr (List ℝ)
  | .d1 a => .ok a
  | _ => .error .typeError

/-- `/repo/dsps/data_loaders/load_filter_data.py:81-86` -/
noncomputable def check_and_clip (transmission : List ℝ) : Except PyErr (List ℝ) := do
  let m ← minArr transmission
  if m < -TOL then throw .valueError
  else
    let m ← minArr transmission
    if m > 1 + TOL then throw .valueError
    else return transmission.map fun x => clip x 0 1

/-- `/repo/dsps/data_loaders/load_filter_data.py:77-88` -/
noncomputable def read_curve (hdf : Hdf) : Except PyErr TransmissionCurve := do
  let d ← hdf.get (chars! "wave")
  let wave ← asD1 d
  let d ← hdf.get (chars! "transmission")
  let transmission ← asD1 d
  let transmission ← check_and_clip transmission
  return ⟨wave, transmission⟩

/-- `/repo/dsps/data_loaders/load_filter_data.py:17-88` `load_transmission_curve` -/
noncomputable def load_transmission_curve (w : World) (fn bn_pat drn : Option Str) : Except PyErr TransmissionCurve := do
  let fn ← resolve w fn bn_pat drn
  match w.hdf fn with
  | none => throw .osError
  | some hdf => read_curve hdf

/-- `jax.scipy.stats.norm.pdf(x, loc, scale)`:
`exp(-(((x-loc)/scale)**2 + log(2 pi scale**2)) / 2)` -/
noncomputable def normPdf (x loc scale : ℝ) : ℝ :=
  Real.exp ((-((x - loc) ^ 2 / scale ^ 2) - Real.log (2 * Real.pi * scale ^ 2)) / 2)

/-- `jax.random.uniform(key, minval, maxval)` for the underlying draw `u` in `[0,1)`: `max(minval, u*(maxval-minval)+minval)` -/
noncomputable def uniform (u minval maxval : ℝ) : ℝ := max minval (u * (maxval - minval) + minval)

/-- `a.max()` of a non-empty array -/
noncomputable def maxArr {n : ℕ} (a : Fin (n + 1) → ℝ) : ℝ := Finset.univ.sup' Finset.univ_nonempty a

/-- `/repo/dsps/data_loaders/load_filter_data.py:91-111` `load_random_transmission_curve`; `u` is the uniform draw made
from `ran_key` (lines 94-96 choose a key when none is given, which only selects `u`). -/
noncomputable def load_random_transmission_curve (u : ℝ) (tcurve_center : Option ℝ) (wave_range : ℝ × ℝ) (scale : ℝ) :
    Except PyErr ((Fin 200 → ℝ) × (Fin 200 → ℝ)) := do
  let tcurve_center ← match tcurve_center with
    | none =>
      let xmin := wave_range.1 + scale * 2
      let xmax := wave_range.2 - scale * 2
      pure (uniform u xmin xmax)
    | some c => if wave_range.1 < c ∧ c < wave_range.2 then pure c else throw .assertionError
  let wave := linspace wave_range.1 wave_range.2 198
  let _transmission : Fin 200 → ℝ := fun i => normPdf (wave i) tcurve_center scale
  let transmission : Fin 200 → ℝ := fun i => _transmission i / maxArr _transmission
  return (wave, transmission)

end Dsps.LoadFilterData
