import Verif.Model.Umzr

/-! Model of what `jax.jit` does to functions that read mutable module-level dictionaries: `/repo/dsps/metallicity/umzr.py` is
the one module of dsps with jitted functions whose bodies read a mutable global (`MZR_PBDICT`).

`jit` runs the Python body once per signature of the arguments (shapes, dtypes, weak types, configuration) and afterwards
replays the recorded program.  So a read of the dictionary happens when a signature is *first* seen; later calls use the
recorded values.  The signature of a call is an arbitrary parameter here: nothing is assumed on when two calls share one. -/
namespace Dsps.JitHistory
open Jnp Dsps.Utils Dsps.Umzr

/-- umzr.py:228-244 `get_bounded_mzr_params` as recorded by a trace: `bounds` are the values of `MZR_PBDICT` baked in at line
234, `ylo` the entry baked into the recorded `_get_mzr_t0_slope_hi_from_unbounded` (line 209). -/
noncomputable def traced_bounded (bounds : Fin 9 → ℝ × ℝ) (ylo : ℝ) (u_params : MZRUParams) : MZRParams :=
  let u_parr := u_params.toArray
  let params := MZRParams.ofArray (vmap₂ get_square_bounded_param u_parr bounds)
  let mzr_t0_slope_hi := sigmoid u_params.u_mzr_t0_slope_hi 0.0 BOUNDING_K ylo params.mzr_t0_slope_lo
  { params with mzr_t0_slope_hi := mzr_t0_slope_hi }

/-- umzr.py:247-264 `get_unbounded_mzr_params` as recorded by a trace; `_get_u_mzr_t0_slope_hi_from_bounded` (lines 215-220) is not
jitted, so its read of the dictionary happens in the same trace. -/
noncomputable def traced_unbounded (bounds : Fin 9 → ℝ × ℝ) (params : MZRParams) : MZRUParams :=
  let parr := params.toArray
  let u_params := MZRUParams.ofArray (vmap₂ get_square_unbounded_param parr bounds)
  let u_mzr_t0_slope_hi := inverse_sigmoid params.mzr_t0_slope_hi 0.0 BOUNDING_K (bounds 4).1 params.mzr_t0_slope_lo
  { u_params with u_mzr_t0_slope_hi := u_mzr_t0_slope_hi }

/-- The mutable state: the dictionary, the dictionary of the z=0 parameters (a default argument), and what the three jitted functions
have recorded for every signature seen.  `Sig`: signatures of the public functions; `Sig'`: of the inner function. -/
structure State (Sig Sig' : Type) where
  /-- umzr.py:58-60 `MZR_PBDICT` -/
  pbdict : Fin 9 → ℝ × ℝ
  /-- umzr.py:33-39 `MZR_T0_PBDICT`, copied into `MZR_PBDICT` at import (line 59), the default of line 72 -/
  t0dict : List (ℝ × ℝ)
  bounded : Sig → Option ((Fin 9 → ℝ × ℝ) × ℝ)
  slopeHi : Sig' → Option ℝ
  unbounded : Sig → Option (Fin 9 → ℝ × ℝ)

/-- What a program does.  `inner` (a parameter of `step`) is the signature with which a call of the outer function calls the inner one. -/
inductive Event (Sig Sig' : Type)
  /-- `MZR_PBDICT[name_k] = b` -/
  | setBound (k : Fin 9) (b : ℝ × ℝ)
  /-- `MZR_T0_PBDICT[name_k] = b` -/
  | setT0Bound (k : ℕ) (b : ℝ × ℝ)
  | bounded (sig : Sig) (u : MZRUParams)
  | unbounded (sig : Sig) (p : MZRParams)
  /-- a direct call of `_get_mzr_t0_slope_hi_from_unbounded` -/
  | slopeHi (sig : Sig') (slope_lo u : ℝ)
  /-- `get_ran_t0_params(key)` with the default bounds; not jitted -/
  | ranT0 (R : Jran) (key : R.Key)

/-- The value a call returns. -/
inductive Out
  | none
  | params (p : MZRParams)
  | uparams (u : MZRUParams)
  | value (r : ℝ)
  | values (l : List ℝ)

variable {Sig Sig' : Type} [DecidableEq Sig] [DecidableEq Sig']

open Classical in
/-- One event: new state and returned value. -/
noncomputable def step (inner : Sig → Sig') (s : State Sig Sig') : Event Sig Sig' → State Sig Sig' × Out
  | .setBound k b => ({ s with pbdict := Function.update s.pbdict k b }, .none)
  | .setT0Bound k b => ({ s with t0dict := s.t0dict.set k b }, .none)
  | .slopeHi sig lo u =>
    let ylo := (s.slopeHi sig).getD (s.pbdict 4).1
    ({ s with slopeHi := Function.update s.slopeHi sig (some ylo) }, .value (sigmoid u 0.0 BOUNDING_K ylo lo))
  | .bounded sig u =>
    match s.bounded sig with
    | some c => (s, .params (traced_bounded c.1 c.2 u))
    | Option.none =>
      -- tracing the outer function calls (or replays) the inner one
      let ylo := (s.slopeHi (inner sig)).getD (s.pbdict 4).1
      ({ s with slopeHi := Function.update s.slopeHi (inner sig) (some ylo),
                bounded := Function.update s.bounded sig (some (s.pbdict, ylo)) },
        .params (traced_bounded s.pbdict ylo u))
  | .unbounded sig p =>
    match s.unbounded sig with
    | some b => (s, .uparams (traced_unbounded b p))
    | Option.none =>
      ({ s with unbounded := Function.update s.unbounded sig (some s.pbdict) }, .uparams (traced_unbounded s.pbdict p))
  | .ranT0 R key => (s, .values (get_ran_t0_params R key s.t0dict))

/-- The state after `import dsps.metallicity.umzr`: line 267 calls `get_unbounded_mzr_params(DEFAULT_MZR_PARAMS)`; `sig₀` is the
signature of that call. -/
noncomputable def imported (sig₀ : Sig) : State Sig Sig' :=
  ⟨MZR_PBDICT, MZR_T0_PBDICT, fun _ => Option.none, fun _ => Option.none,
    Function.update (fun _ => Option.none) sig₀ (some MZR_PBDICT)⟩

/-- A history: final state and the returned values in order. -/
noncomputable def run (inner : Sig → Sig') (s : State Sig Sig') : List (Event Sig Sig') → State Sig Sig' × List Out
  | [] => (s, [])
  | e :: es =>
    let r := step inner s e
    let rest := run inner r.1 es
    (rest.1, r.2 :: rest.2)

end Dsps.JitHistory
