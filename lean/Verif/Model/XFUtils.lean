/- Second model of parts of dsps/utils.py, sfh/diffburst.py and sed/metallicity_weights.py, with the IEEE special values of
`Verif/XF.lean`: used for statements about nan and inf. -/
import Verif.XF
import Verif.Model.Utils
import Verif.Model.MetallicityWeights
import Verif.Model.Diffburst

namespace Dsps.XFUtils
open Dsps.Constants
open Classical

variable {n m : ℕ}

/-- utils.py:56-63 `_tw_cuml_kern` -/
noncomputable def tw_cuml_kern (x m h : XF) : XF :=
  let z := (x - m) / h
  let val := -5 * z ^ (7 : ℕ) / 69984 + 7 * z ^ (5 : ℕ) / 2592 - 35 * z ^ (3 : ℕ) / 864 + 35 * z / 96 + 1 / 2
  let val := if z < -3 then 0 else val
  let val := if 3 < z then 1 else val
  val

/-- utils.py:73-78 `_triweighted_histogram_kernel` -/
noncomputable def triweighted_histogram_kernel (x sig lo hi : XF) : XF :=
  let a := tw_cuml_kern x lo sig
  let b := tw_cuml_kern x hi sig
  a - b

/-- utils.py:81-102 `triweighted_histogram` -/
noncomputable def triweighted_histogram (x sig : XF) (xbins : Fin (n + 1) → XF) : Fin n → XF :=
  fun i => triweighted_histogram_kernel x sig (xbins i.castSucc) (xbins i.succ)

/-- utils.py:105-110 `triweight_gaussian` -/
noncomputable def triweight_gaussian (x m h : XF) : XF :=
  let z := (x - m) / h
  let val := 35 / 96 * (1 - (z / 3) ^ (2 : ℕ)) ^ (3 : ℕ) / h
  if z < -3 ∨ 3 < z then 0 else val

/-- utils.py:119-133 `_fill_empty_weights_singlepoint` -/
noncomputable def fill_empty_weights_singlepoint (x : XF) (bin_edges : Fin (n + 2) → XF) (weights : Fin (n + 1) → XF) :
    Fin (n + 1) → XF :=
  let zmsk : Prop := ∀ i, XF.eqv (weights i) 0
  let lomsk : Prop := x < bin_edges 0
  let himsk : Prop := bin_edges (Fin.last (n + 1)) < x
  let lores : Fin (n + 1) → XF := Function.update (fun _ => 0) 0 1
  let hires : Fin (n + 1) → XF := Function.update (fun _ => 0) (Fin.last n) 1
  let weights := if zmsk ∧ lomsk then lores else weights
  let weights := if zmsk ∧ himsk then hires else weights
  weights

/-- metallicity_weights.py:104-116 `_get_lgmet_weights_singlegal` (the same code as utils.py:136-146
`_get_triweights_singlepoint`) -/
noncomputable def get_lgmet_weights_singlegal (gal_lgmet gal_lgmet_scatter : XF) (lgmetbin_edges : Fin (n + 2) → XF) :
    Fin (n + 1) → XF :=
  let tw_hist_results := triweighted_histogram gal_lgmet gal_lgmet_scatter lgmetbin_edges
  let tw_hist_results_sum := XF.sum tw_hist_results
  let zmsk : Prop := XF.eqv tw_hist_results_sum 0
  let tw_hist_results_sum := if zmsk then 1 else tw_hist_results_sum
  let weights := fun i => tw_hist_results i / tw_hist_results_sum
  fill_empty_weights_singlepoint gal_lgmet lgmetbin_edges weights

/-- utils.py:149-152 `_sigmoid` -/
noncomputable def sigmoid (x x0 k ylo yhi : XF) : XF :=
  let height_diff := yhi - ylo
  ylo + height_diff * (1 / (1 + XF.exp (-(k * (x - x0)))))

/-- utils.py:155-158 `_inverse_sigmoid` -/
noncomputable def inverse_sigmoid (y x0 k ylo yhi : XF) : XF :=
  let lnarg := (yhi - ylo) / (y - ylo) - 1
  x0 - XF.log lnarg / k

/-- `a ** b` on floats for a positive base `a` (for other bases, which the modelled code does not reach, nan is returned). -/
noncomputable def pow (a b : XF) : XF :=
  match a, b with
  | .fin x, .fin y => if 0 < x then .fin (x ^ y) else .nan
  | .fin x, .nzero => if 0 < x then 1 else .nan
  | .fin x, .inf s =>
    if x = 1 then 1 else if 0 < x then (if (1 < x ↔ s = false) then .inf false else 0) else .nan
  | _, _ => .nan

/-- utils.py:190-215 `powerlaw_pdf` (elementwise) -/
noncomputable def powerlaw_pdf (x a b g : XF) : XF :=
  let ag := pow a g
  let bg := pow b g
  g * pow x (g - 1) / (bg - ag)

/-- utils.py:218-244 `powerlaw_rvs` (elementwise, `r` the uniform draw) -/
noncomputable def powerlaw_rvs (r a b g : XF) : XF :=
  let ag := pow a g
  let bg := pow b g
  pow (ag + (bg - ag) * r) (1 / g)

/-- diffburst.py:104-108 `_zero_safe_normalize` -/
noncomputable def zero_safe_normalize (x : Fin n → XF) : Fin n → XF :=
  let s := XF.sum x
  let s := if s ≤ 0 then 1 else s
  fun i => x i / s

/-- diffburst.py:111-123 `_pureburst_age_weights_from_params` -/
noncomputable def pureburst_age_weights_from_params (lgyr : Fin n → XF) (lgyr_peak lgyr_max : XF) : Fin n → XF :=
  let dlgyr_support := lgyr_max - lgyr_peak
  let lgyr_min := lgyr_peak - dlgyr_support
  let twx0 := 0.5 * (lgyr_min + lgyr_max)
  let dlgyr := lgyr_max - lgyr_min
  let twh := dlgyr / 6
  let tw_gauss := fun i => triweight_gaussian (lgyr i) twx0 twh
  zero_safe_normalize tw_gauss

end Dsps.XFUtils
