import Verif.Model.Utils

/-! Model of `/repo/dsps/metallicity/umzr.py` (line numbers refer to that file).
`get_ran_t0_params` (random draws) is modelled at the end, with the generator as a parameter. -/
namespace Dsps.Umzr
open Jnp Dsps.Utils

/-- umzr.py:13 -/
noncomputable def MZR_EVOL_T0 : ℝ := 12.5
/-- umzr.py:14 -/
noncomputable def MZR_EVOL_K : ℝ := 1.6
/-- umzr.py:16 -/
noncomputable def MZR_T0_XTP : ℝ := 10.5
/-- umzr.py:17 -/
noncomputable def MZR_DT_XTP : ℝ := 8.44
/-- umzr.py:18 -/
noncomputable def BOUNDING_K : ℝ := 0.1
/-- umzr.py:19 -/
noncomputable def LGMET_SOLAR : ℝ := log10 0.012
/-- umzr.py:21 -/
noncomputable def MZR_SCATTER : ℝ := 0.1
/-- umzr.py:23 -/
noncomputable def TLOOK_C : ℝ := 8.44

/-- umzr.py:62-65 `MZRParams`: fields in the order of `_MZR_PNAMES`. -/
@[ext] structure MZRParams where
  mzr_t0_ytp : ℝ
  mzr_t0_x0 : ℝ
  mzr_t0_k : ℝ
  mzr_t0_slope_lo : ℝ
  mzr_t0_slope_hi : ℝ
  c0_y_at_tlook_c : ℝ
  c1_y_at_tlook_c : ℝ
  c0_early_time_slope : ℝ
  c1_early_time_slope : ℝ

/-- umzr.py:63-66 `MZRUParams`: fields in the order of `_MZR_UPNAMES`. -/
@[ext] structure MZRUParams where
  u_mzr_t0_ytp : ℝ
  u_mzr_t0_x0 : ℝ
  u_mzr_t0_k : ℝ
  u_mzr_t0_slope_lo : ℝ
  u_mzr_t0_slope_hi : ℝ
  u_c0_y_at_tlook_c : ℝ
  u_c1_y_at_tlook_c : ℝ
  u_c0_early_time_slope : ℝ
  u_c1_early_time_slope : ℝ

/-- `jnp.array([getattr(params, pname) for pname in _MZR_PNAMES])`, umzr.py:249 -/
def MZRParams.toArray (p : MZRParams) : Fin 9 → ℝ :=
  ![p.mzr_t0_ytp, p.mzr_t0_x0, p.mzr_t0_k, p.mzr_t0_slope_lo, p.mzr_t0_slope_hi, p.c0_y_at_tlook_c, p.c1_y_at_tlook_c,
    p.c0_early_time_slope, p.c1_early_time_slope]

/-- `jnp.array([getattr(u_params, u_pname) for u_pname in _MZR_UPNAMES])`, umzr.py:230 -/
def MZRUParams.toArray (p : MZRUParams) : Fin 9 → ℝ :=
  ![p.u_mzr_t0_ytp, p.u_mzr_t0_x0, p.u_mzr_t0_k, p.u_mzr_t0_slope_lo, p.u_mzr_t0_slope_hi, p.u_c0_y_at_tlook_c,
    p.u_c1_y_at_tlook_c, p.u_c0_early_time_slope, p.u_c1_early_time_slope]

/-- `MZRParams(*arr)`, umzr.py:233 -/
def MZRParams.ofArray (a : Fin 9 → ℝ) : MZRParams := ⟨a 0, a 1, a 2, a 3, a 4, a 5, a 6, a 7, a 8⟩

/-- `MZRUParams(*arr)`, umzr.py:252 -/
def MZRUParams.ofArray (a : Fin 9 → ℝ) : MZRUParams := ⟨a 0, a 1, a 2, a 3, a 4, a 5, a 6, a 7, a 8⟩

/-- umzr.py:26-32, 41-46, 68 `DEFAULT_MZR_PARAMS` -/
noncomputable def DEFAULT_MZR_PARAMS : MZRParams :=
  ⟨0.05, 10.5, 1, 0.4, 0.1, -1.455, 0.13, -0.959, 0.067242⟩

/-- umzr.py:33-39, 47-52, 58-60 `MZR_PBDICT.values()` as a list of (lo, hi), in field order. -/
noncomputable def MZR_PBDICT : Fin 9 → ℝ × ℝ :=
  ![(-1.0, 0.25), (10.25, 10.75), (0.5, 2), (0.1, 1.0), (0.0, 0.3), (-2.0, -1.0), (0.0, 0.5), (-1.5, -0.5), (0.0, 0.5)]

/-- umzr.py:83-96 `mzr_model_t0` -/
noncomputable def mzr_model_t0 (logsm mzr_t0_ytp mzr_t0_x0 mzr_t0_k mzr_t0_slope_lo mzr_t0_slope_hi : ℝ) : ℝ :=
  let mzr_t0 := sig_slope logsm MZR_T0_XTP mzr_t0_ytp mzr_t0_x0 mzr_t0_k mzr_t0_slope_lo mzr_t0_slope_hi
  mzr_t0 + LGMET_SOLAR

/-- umzr.py:99-104 `_delta_logz_vs_t_lookback` -/
noncomputable def delta_logz_vs_t_lookback (t_lookback y_at_tc early_time_slope k : ℝ) : ℝ :=
  let late_time_slope := y_at_tc / TLOOK_C
  sig_slope t_lookback MZR_DT_XTP y_at_tc TLOOK_C k late_time_slope early_time_slope

/-- umzr.py:107-117 `_get_p_at_lgmstar` -/
noncomputable def get_p_at_lgmstar (lgmstar c0_y_at_tlook_c c1_y_at_tlook_c c0_early_time_slope c1_early_time_slope : ℝ) :
    ℝ × ℝ :=
  let y_at_tlook_c := c0_y_at_tlook_c + c1_y_at_tlook_c * lgmstar
  let early_time_slope := c0_early_time_slope + c1_early_time_slope * lgmstar
  (y_at_tlook_c, early_time_slope)

/-- umzr.py:120-139 `_delta_logz_at_t_lookback` -/
noncomputable def delta_logz_at_t_lookback
    (lgmstar t_lookback c0_y_at_tlook_c c1_y_at_tlook_c c0_early_time_slope c1_early_time_slope : ℝ) : ℝ :=
  let r := get_p_at_lgmstar lgmstar c0_y_at_tlook_c c1_y_at_tlook_c c0_early_time_slope c1_early_time_slope
  let logZ_reduction := delta_logz_vs_t_lookback t_lookback r.1 r.2 MZR_EVOL_K
  if logZ_reduction > 0 then 0 else logZ_reduction

/-- umzr.py:142-161 `mzr_evolution_model` -/
noncomputable def mzr_evolution_model
    (logsm cosmic_time c0_y_at_tlook_c c1_y_at_tlook_c c0_early_time_slope c1_early_time_slope : ℝ) : ℝ :=
  let t_lookback := MZR_EVOL_T0 - cosmic_time
  let t_lookback := if t_lookback < 0 then 0 else t_lookback
  delta_logz_at_t_lookback logsm t_lookback c0_y_at_tlook_c c1_y_at_tlook_c c0_early_time_slope c1_early_time_slope

/-- umzr.py:164-189 `mzr_model`; called with the nine parameters unpacked in field order. -/
noncomputable def mzr_model (logsm t : ℝ) (p : MZRParams) : ℝ :=
  let lgmet_at_t0 := mzr_model_t0 logsm p.mzr_t0_ytp p.mzr_t0_x0 p.mzr_t0_k p.mzr_t0_slope_lo p.mzr_t0_slope_hi
  let logZ_reduction := mzr_evolution_model logsm t p.c0_y_at_tlook_c p.c1_y_at_tlook_c p.c0_early_time_slope
    p.c1_early_time_slope
  lgmet_at_t0 + logZ_reduction

/-- umzr.py:192-196 `_get_square_bounded_param` -/
noncomputable def get_square_bounded_param (u_param : ℝ) (bound : ℝ × ℝ) : ℝ :=
  let lo := bound.1
  let hi := bound.2
  let mid := 0.5 * (lo + hi)
  sigmoid u_param mid BOUNDING_K lo hi

/-- umzr.py:199-203 `_get_square_unbounded_param` -/
noncomputable def get_square_unbounded_param (param : ℝ) (bound : ℝ × ℝ) : ℝ :=
  let lo := bound.1
  let hi := bound.2
  let mid := 0.5 * (lo + hi)
  inverse_sigmoid param mid BOUNDING_K lo hi

/-- umzr.py:206-212 `_get_mzr_t0_slope_hi_from_unbounded` -/
noncomputable def get_mzr_t0_slope_hi_from_unbounded (mzr_t0_slope_lo u_mzr_t0_slope_hi : ℝ) : ℝ :=
  let x0 := 0.0
  let ylo := (MZR_PBDICT 4).1
  let yhi := mzr_t0_slope_lo
  sigmoid u_mzr_t0_slope_hi x0 BOUNDING_K ylo yhi

/-- umzr.py:215-220 `_get_u_mzr_t0_slope_hi_from_bounded` -/
noncomputable def get_u_mzr_t0_slope_hi_from_bounded (mzr_t0_slope_lo mzr_t0_slope_hi : ℝ) : ℝ :=
  let x0 := 0.0
  let ylo := (MZR_PBDICT 4).1
  let yhi := mzr_t0_slope_lo
  inverse_sigmoid mzr_t0_slope_hi x0 BOUNDING_K ylo yhi

/-- umzr.py:224, 228-244 `get_bounded_mzr_params` -/
noncomputable def get_bounded_mzr_params (u_params : MZRUParams) : MZRParams :=
  let u_parr := u_params.toArray
  let params := MZRParams.ofArray (vmap₂ get_square_bounded_param u_parr MZR_PBDICT)
  let mzr_t0_slope_hi := get_mzr_t0_slope_hi_from_unbounded params.mzr_t0_slope_lo u_params.u_mzr_t0_slope_hi
  { params with mzr_t0_slope_hi := mzr_t0_slope_hi }

/-- umzr.py:225, 247-264 `get_unbounded_mzr_params` -/
noncomputable def get_unbounded_mzr_params (params : MZRParams) : MZRUParams :=
  let parr := params.toArray
  let u_params := MZRUParams.ofArray (vmap₂ get_square_unbounded_param parr MZR_PBDICT)
  let u_mzr_t0_slope_hi := get_u_mzr_t0_slope_hi_from_bounded params.mzr_t0_slope_lo params.mzr_t0_slope_hi
  { u_params with u_mzr_t0_slope_hi := u_mzr_t0_slope_hi }

/-- umzr.py:267 -/
noncomputable def DEFAULT_MZR_U_PARAMS : MZRUParams := get_unbounded_mzr_params DEFAULT_MZR_PARAMS

/-- A splittable generator as used through `jax.random` (umzr.py:8): keys, `split(key, 2)`, and the uniform deviate in `[0,1)` that
`uniform` derives from a key.  Nothing is assumed about the quality of the numbers. -/
structure Jran where
  Key : Type
  split : Key → Key × Key
  deviate : Key → ℝ
  deviate_mem : ∀ k, 0 ≤ deviate k ∧ deviate k < 1

/-- `jran.uniform(key, minval=lo, maxval=hi, shape=())`: JAX returns `max(minval, deviate * (maxval - minval) + minval)`. -/
noncomputable def Jran.uniform (R : Jran) (key : R.Key) (minval maxval : ℝ) : ℝ :=
  max minval (R.deviate key * (maxval - minval) + minval)

/-- umzr.py:33-39 `MZR_T0_PBDICT.values()` -/
noncomputable def MZR_T0_PBDICT : List (ℝ × ℝ) := [(-1.0, 0.25), (10.25, 10.75), (0.5, 2), (0.1, 1.0), (0.0, 0.3)]

/-- umzr.py:76-79, the loop body and loop: `ran_key` is rebound at every turn. -/
noncomputable def ran_t0_loop (R : Jran) : R.Key → List (ℝ × ℝ) → List ℝ → List ℝ
  | _, [], params => params
  | ran_key, b :: bs, params =>
    let (ran_key, p_key) := R.split ran_key
    let u := R.uniform p_key b.1 b.2
    ran_t0_loop R ran_key bs (params ++ [u])

/-- umzr.py:72-80 `get_ran_t0_params` -/
noncomputable def get_ran_t0_params (R : Jran) (ran_key : R.Key) (bounds_pdict : List (ℝ × ℝ) := MZR_T0_PBDICT) : List ℝ :=
  let bounds := bounds_pdict
  ran_t0_loop R ran_key bounds []

end Dsps.Umzr
