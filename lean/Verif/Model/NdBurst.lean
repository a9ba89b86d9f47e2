import Verif.Model.NdElem

/-! `dsps/sfh/diffburst.py` and the parameter transformations of `dsps/metallicity/umzr.py` on arrays of any shapes. -/
namespace Nd.E
open Py

/-- `jnp.sum(a)` -/
noncomputable def sumAll (a : E) : E := Except.bind a fun x => .ok (Nd.sumAll x)

/-- `a <= b` -/
def le (a b : E) : EP := rel2 (· ≤ ·) a b

end Nd.E

namespace Dsps.NdBurst
open Nd E Py

/-- diffburst.py:104-108 `_zero_safe_normalize` -/
noncomputable def zero_safe_normalize (x : E) : E :=
  let s := sumAll x
  let s := where_ (le s 0) 1 s
  x / s

/-- diffburst.py:111-123 `_pureburst_age_weights_from_params`, up to the normalisation -/
noncomputable def pureburst_kernel (lgyr lgyr_peak lgyr_max : E) : E :=
  let dlgyr_support := lgyr_max - lgyr_peak
  let lgyr_min := lgyr_peak - dlgyr_support
  let twx0 := 0.5 * (lgyr_min + lgyr_max)
  let dlgyr := lgyr_max - lgyr_min
  let twh := dlgyr / 6
  NdElem.triweight_gaussian lgyr twx0 twh

/-- diffburst.py:111-123 `_pureburst_age_weights_from_params` -/
noncomputable def pureburst_age_weights_from_params (lgyr lgyr_peak lgyr_max : E) : E :=
  zero_safe_normalize (pureburst_kernel lgyr lgyr_peak lgyr_max)

/-- diffburst.py:38-71 `calc_bursty_age_weights`, the three burst parameters being arrays -/
noncomputable def calc_bursty_age_weights (lgfburst lgyr_peak lgyr_max smooth_age_weights ssp_lg_age_gyr : E) : E :=
  let ssp_lg_age_yr := ssp_lg_age_gyr + 9.0
  let burst_weights := pureburst_age_weights_from_params ssp_lg_age_yr lgyr_peak lgyr_max
  let fb := (10 : E) ^ lgfburst
  fb * burst_weights + (1 - fb) * smooth_age_weights

/-- diffburst.py:74-101, 133-148 `calc_bursty_age_weights_from_u_params`, `_get_params_from_u_params`, `_get_tburst_params_from_tburst_u_params` -/
noncomputable def calc_bursty_age_weights_from_u_params (u_lgfburst u_lgyr_peak u_lgyr_max smooth_age_weights ssp_lg_age_gyr : E) : E :=
  let lgfburst := NdElem.get_lgfburst_from_u_lgfburst u_lgfburst
  let lgyr_peak := NdElem.get_lgyr_peak_from_u_lgyr_peak u_lgyr_peak
  let lgyr_max := NdElem.get_lgyr_max_from_lgyr_peak lgyr_peak u_lgyr_max
  calc_bursty_age_weights lgfburst lgyr_peak lgyr_max smooth_age_weights ssp_lg_age_gyr

end Dsps.NdBurst

namespace Dsps.NdUmzr
open Nd E Py

/-- `jnp.array([a_0, …, a_8])`: stacks arrays of one shape and raises otherwise -/
def stack9 (a : Fin 9 → Arr ℝ) : Except PyErr (Arr ℝ) :=
  if ∀ k, (a k).shape = (a 0).shape then
    .ok ⟨9 :: (a 0).shape, fun idx => match idx with
      | i :: r => if h : i < 9 then (a ⟨i, h⟩).dat r else 0
      | [] => 0⟩
  else .error .valueError

/-- `jnp.array(list(MZR_PBDICT.values()))`, of shape (9, 2) -/
noncomputable def pbounds : Arr ℝ :=
  ⟨[9, 2], fun idx => match idx with
    | [i, j] => if h : i < 9 then (if j = 0 then (Umzr.MZR_PBDICT ⟨i, h⟩).1 else if j = 1 then (Umzr.MZR_PBDICT ⟨i, h⟩).2 else 0) else 0
    | _ => 0⟩

/-- `lo, hi = bound` -/
noncomputable def unpack2 (bound : Arr ℝ) : Except PyErr (Arr ℝ × Arr ℝ) :=
  match bound.shape with
  | 2 :: s => .ok (row bound s 0, row bound s 1)
  | _ => .error .valueError

/-- `MZRParams(*arr)` for an array whose leading axis has nine entries -/
def unstack9 (a : Arr ℝ) : Except PyErr (Fin 9 → Arr ℝ) :=
  match a.shape with
  | 9 :: s => .ok fun k => row a s k
  | _ => .error .typeError

/-- umzr.py:192-196 `_get_square_bounded_param` -/
noncomputable def get_square_bounded_param (u_param bound : Arr ℝ) : Except PyErr (Arr ℝ) :=
  match unpack2 bound with
  | .ok (lo, hi) =>
    let mid : E := 0.5 * (arr lo + arr hi)
    NdElem.sigmoid (arr u_param) mid (lit Umzr.BOUNDING_K) (arr lo) (arr hi)
  | .error e => .error e

/-- umzr.py:199-203 `_get_square_unbounded_param` -/
noncomputable def get_square_unbounded_param (param bound : Arr ℝ) : Except PyErr (Arr ℝ) :=
  match unpack2 bound with
  | .ok (lo, hi) =>
    let mid : E := 0.5 * (arr lo + arr hi)
    NdElem.inverse_sigmoid (arr param) mid (lit Umzr.BOUNDING_K) (arr lo) (arr hi)
  | .error e => .error e

/-- umzr.py:223-244 `get_bounded_mzr_params`; the parameters are the nine fields in order, and field 4 is overwritten -/
noncomputable def get_bounded_mzr_params (u : Fin 9 → Arr ℝ) : Except PyErr (Fin 9 → Arr ℝ) := do
  let u_parr ← stack9 u
  let parr ← vmapTwo get_square_bounded_param u_parr pbounds
  let params ← unstack9 parr
  let mzr_t0_slope_hi ← (NdElem.Umzr.get_mzr_t0_slope_hi_from_unbounded (arr (params 3)) (arr (u 4)) : Except PyErr (Arr ℝ))
  return Function.update params 4 mzr_t0_slope_hi

/-- umzr.py:225, 247-264 `get_unbounded_mzr_params` -/
noncomputable def get_unbounded_mzr_params (p : Fin 9 → Arr ℝ) : Except PyErr (Fin 9 → Arr ℝ) := do
  let parr ← stack9 p
  let u_parr ← vmapTwo get_square_unbounded_param parr pbounds
  let u_params ← unstack9 u_parr
  let u_mzr_t0_slope_hi ← (NdElem.Umzr.get_u_mzr_t0_slope_hi_from_bounded (arr (p 3)) (arr (p 4)) : Except PyErr (Arr ℝ))
  return Function.update u_params 4 u_mzr_t0_slope_hi

end Dsps.NdUmzr
