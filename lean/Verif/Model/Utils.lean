import Verif.Jnp
import Verif.Model.Constants

/-! Model of `/repo/dsps/utils.py` (line numbers refer to that file).
Leading underscores of Python names are dropped.  `@jjit` is the identity. -/
namespace Dsps.Utils
open Jnp Dsps.Constants

variable {n m p b : ℕ}

/-- utils.py:12 -/
noncomputable def YEAR_PER_GYR : ℝ := 1e9

/-- utils.py:15-28 `_jax_get_dt_array`.  Needs at least three points: with two, `dtmids[-1]` indexes an
empty array. -/
noncomputable def jax_get_dt_array (t : Fin (n + 3) → ℝ) : Fin (n + 3) → ℝ :=
  let dt := zeros (n + 3)
  let tmids : Fin (n + 2) → ℝ := fun i => 0.5 * (init t i + tail t i)
  let dtmids : Fin (n + 1) → ℝ := diff tmids
  let dt := setInterior dt dtmids
  let t_lo := t 0 - (t 1 - t 0) / 2
  let t_hi := last t + last dtmids / 2
  let dt := setAt dt 0 (tmids 0 - t_lo)
  let dt := setAt dt (Fin.last (n + 2)) (t_hi - last tmids)
  dt

/-- utils.py:31-53 `_get_bin_edges` -/
noncomputable def get_bin_edges (bin_mids : Fin (n + 3) → ℝ) (lowest_bin_edge highest_bin_edge : ℝ) :
    Fin (n + 4) → ℝ :=
  let dbins := jax_get_dt_array bin_mids
  let bin_edges := zeros (n + 4)
  let bin_edges := setInit bin_edges (fun i => bin_mids i - dbins i / 2)
  let bin_edges := setAt bin_edges 0 lowest_bin_edge
  let bin_edges := setAt bin_edges (Fin.last (n + 3)) highest_bin_edge
  bin_edges

/-- utils.py:56-63 `_tw_cuml_kern` -/
noncomputable def tw_cuml_kern (x m h : ℝ) : ℝ :=
  let z := (x - m) / h
  let val := -5 * z ^ 7 / 69984 + 7 * z ^ 5 / 2592 - 35 * z ^ 3 / 864 + 35 * z / 96 + 1 / 2
  let val := if z < -3 then 0 else val
  let val := if z > 3 then 1 else val
  val

/-- utils.py:66-70 `_tw_sigmoid` -/
noncomputable def tw_sigmoid (x x0 tw_h ymin ymax : ℝ) : ℝ :=
  let height_diff := ymax - ymin
  let body := tw_cuml_kern x x0 tw_h
  ymin + height_diff * body

/-- utils.py:73-78 `_triweighted_histogram_kernel` -/
noncomputable def triweighted_histogram_kernel (x sig lo hi : ℝ) : ℝ :=
  let a := tw_cuml_kern x lo sig
  let b := tw_cuml_kern x hi sig
  a - b

/-- utils.py:81-102 `triweighted_histogram` (and `_triweighted_histogram_vmap`), at one point `x`; the code applies
the same kernel to each entry of an `x` array. `xbins` holds `n+1` edges, the result `n` bins. -/
noncomputable def triweighted_histogram (x sig : ℝ) (xbins : Fin (n + 1) → ℝ) : Fin n → ℝ :=
  vmap₂ (fun lo hi => triweighted_histogram_kernel x sig lo hi) (init xbins) (tail xbins)

/-- utils.py:105-110 `triweight_gaussian` -/
noncomputable def triweight_gaussian (x m h : ℝ) : ℝ :=
  let z := (x - m) / h
  let val := 35 / 96 * (1 - (z / 3) ^ 2) ^ 3 / h
  if z < -3 ∨ z > 3 then 0 else val

/-- utils.py:113-116 `_tw_sig_slope` -/
noncomputable def tw_sig_slope (x xtp ytp x0 tw_h lo hi : ℝ) : ℝ :=
  let slope := tw_sigmoid x x0 tw_h lo hi
  ytp + slope * (x - xtp)

open Classical in
/-- utils.py:119-133 `_fill_empty_weights_singlepoint`, `n+1 ≥ 1` bins -/
noncomputable def fill_empty_weights_singlepoint (x : ℝ) (bin_edges : Fin (n + 2) → ℝ)
    (weights : Fin (n + 1) → ℝ) : Fin (n + 1) → ℝ :=
  let zmsk : Prop := ∀ i, weights i = 0
  let lomsk : Prop := x < bin_edges 0
  let himsk : Prop := x > last bin_edges
  let lores := setAt (zeros (n + 1)) 0 1.0
  let hires := setAt (zeros (n + 1)) (Fin.last n) 1.0
  let weights := if zmsk ∧ lomsk then lores else weights
  let weights := if zmsk ∧ himsk then hires else weights
  weights

open Classical in
/-- utils.py:136-146 `_get_triweights_singlepoint`.  (`zmsk` inside `_fill_empty_weights_singlepoint` is computed
from the incoming weights, before either fill.) -/
noncomputable def get_triweights_singlepoint (x sig : ℝ) (bin_edges : Fin (n + 2) → ℝ) :
    Fin (n + 1) → ℝ :=
  let tw_hist_results := triweighted_histogram x sig bin_edges
  let tw_hist_results_sum := sum tw_hist_results
  let zmsk : Prop := tw_hist_results_sum = 0
  let tw_hist_results_sum := if zmsk then 1.0 else tw_hist_results_sum
  let weights := fun i => tw_hist_results i / tw_hist_results_sum
  fill_empty_weights_singlepoint x bin_edges weights

/-- utils.py:149-152 `_sigmoid` -/
noncomputable def sigmoid (x x0 k ylo yhi : ℝ) : ℝ :=
  let height_diff := yhi - ylo
  ylo + height_diff * Jnp.sigmoid (k * (x - x0))

/-- utils.py:155-158 `_inverse_sigmoid` -/
noncomputable def inverse_sigmoid (y x0 k ylo yhi : ℝ) : ℝ :=
  let lnarg := (yhi - ylo) / (y - ylo) - 1
  x0 - Real.log lnarg / k

/-- utils.py:161-164 `_sig_slope` -/
noncomputable def sig_slope (x xtp ytp x0 slope_k lo hi : ℝ) : ℝ :=
  let slope := sigmoid x x0 slope_k lo hi
  ytp + slope * (x - xtp)

/-- utils.py:167-169 `_mult_2d` -/
noncomputable def mult_2d (w1 w2 : ℝ) : ℝ := w1 * w2

/-- utils.py:172-174 `_mult_3d` -/
noncomputable def mult_3d (w1 w2 w3 : ℝ) : ℝ := w1 * w2 * w3

/-- utils.py:177 `_mult_2d_vmap`: the outer vmap runs over the first argument, the inner over the second. -/
noncomputable def mult_2d_vmap (w1 : Fin n → ℝ) (w2 : Fin m → ℝ) : Fin n → Fin m → ℝ :=
  vmap (fun a => vmap (fun b => mult_2d a b) w2) w1

/-- utils.py:178 `_get_weight_matrices_2d`: one matrix per galaxy. -/
noncomputable def get_weight_matrices_2d (w1 : Fin b → Fin n → ℝ) (w2 : Fin b → Fin m → ℝ) :
    Fin b → Fin n → Fin m → ℝ := vmap₂ mult_2d_vmap w1 w2

/-- utils.py:181-186 `_mult_3d_vmap` -/
noncomputable def mult_3d_vmap (w1 : Fin n → ℝ) (w2 : Fin m → ℝ) (w3 : Fin p → ℝ) :
    Fin n → Fin m → Fin p → ℝ :=
  vmap (fun a => vmap (fun b => vmap (fun c => mult_3d a b c) w3) w2) w1

/-- utils.py:187 `_get_weight_matrices_3d` -/
noncomputable def get_weight_matrices_3d (w1 : Fin b → Fin n → ℝ) (w2 : Fin b → Fin m → ℝ)
    (w3 : Fin b → Fin p → ℝ) : Fin b → Fin n → Fin m → Fin p → ℝ :=
  vmap₃ mult_3d_vmap w1 w2 w3

/-- utils.py:190-215 `powerlaw_pdf` (elementwise) -/
noncomputable def powerlaw_pdf (x a b g : ℝ) : ℝ :=
  let ag := a ^ g
  let bg := b ^ g
  g * x ^ (g - 1) / (bg - ag)

/-- utils.py:218-244 `powerlaw_rvs` (elementwise).  The random key is replaced by the uniform deviate
`r ∈ [0,1)` that `jran.uniform` draws for the element. -/
noncomputable def powerlaw_rvs (r a b g : ℝ) : ℝ :=
  let ag := a ^ g
  let bg := b ^ g
  (ag + (bg - ag) * r) ^ (1.0 / g)

/-- utils.py:247-254 `_cumtrapz_scan_func` -/
noncomputable def cumtrapz_scan_func (carryover : ℝ × ℝ × ℝ) (el : ℝ × ℝ) : (ℝ × ℝ × ℝ) × ℝ :=
  let b := el.1
  let fb := el.2
  let a := carryover.1
  let fa := carryover.2.1
  let cumtrapz := carryover.2.2
  let cumtrapz := cumtrapz + (b - a) * (fb + fa) / 2.0
  ((b, fb, cumtrapz), cumtrapz)

/-- utils.py:257-275 `cumtrapz`; needs at least one sample (`xarr[0]`). -/
noncomputable def cumtrapz (xarr yarr : Fin (n + 1) → ℝ) : Fin (n + 1) → ℝ :=
  let res_init := (xarr 0, yarr 0, (0 : ℝ))
  let scan_data := fun i => (xarr i, yarr i)
  (scan cumtrapz_scan_func res_init scan_data).2

/-- utils.py:278-293 `trapz` -/
noncomputable def trapz (xarr yarr : Fin (n + 1) → ℝ) : ℝ := trapezoid yarr xarr

/-- utils.py:296-334 `cumulative_mstar_formed` -/
noncomputable def cumulative_mstar_formed (t_table sfh_table : Fin n → ℝ) : Fin n → ℝ :=
  let padded_t_table := zeros (n + 1)
  let padded_t_table := setAt padded_t_table 0 T_BIRTH_MIN
  let padded_t_table := setTail padded_t_table t_table
  let padded_sfh_table := zeros (n + 1)
  let padded_sfh_table := setAt padded_sfh_table 0 SFR_MIN
  let padded_sfh_table := setTail padded_sfh_table sfh_table
  fun i => tail (cumtrapz padded_t_table padded_sfh_table) i * YEAR_PER_GYR

end Dsps.Utils
