import Verif.Lemmas.Nd
import Verif.Model.NdSed

/-! The dynamically shaped SED pipeline on arguments of the documented shapes. -/
namespace Dsps.NdSed
open Nd Py Dsps.Constants

variable [Jnp.Dtype] [Edge] {n m k w : ℕ}

theorem jax_get_dt_array_ok {t : Arr ℝ} {x : Fin (n + 3) → ℝ} (h : Is1 t x) :
    Ok (jax_get_dt_array t) (Is1 · (Utils.jax_get_dt_array x)) := by
  refine (sliceInit_1 h).bind fun lo hlo => ?_
  refine (sliceTail_1 h).bind fun hi hhi => ?_
  refine (map2_11 hlo hhi).bind fun mid hmid => ?_
  have hm := hmid.map (0.5 * ·)
  refine (diff_1 hm).bind fun dm hdm => ?_
  refine (setInterior_1 (zerosLike_1 h) hdm).bind fun dt hdt => ?_
  refine (idx_1 h 0).bind fun t0 ht0 => ?_
  refine (idx_1 h 1).bind fun t1 ht1 => ?_
  refine (map2_00 ht1 ht0).bind fun d10 hd10 => ?_
  refine (map2_00 ht0 (hd10.map _)).bind fun tlo htlo => ?_
  refine (idxLast_1 h).bind fun tl htl => ?_
  refine (idxLast_1 hdm).bind fun dl hdl => ?_
  refine (map2_00 htl (hdl.map _)).bind fun thi hthi => ?_
  refine (idx_1 hm 0).bind fun m0 hm0 => ?_
  refine (map2_00 hm0 htlo).bind fun e0 he0 => ?_
  refine (setFirst_1 hdt he0).bind fun dt' hdt' => ?_
  refine (idxLast_1 hm).bind fun ml hml => ?_
  refine (map2_00 hthi hml).bind fun e1 he1 => ?_
  exact setLast_1 hdt' he1

theorem get_bin_edges_ok {t : Arr ℝ} {x : Fin (n + 3) → ℝ} (h : Is1 t x) (lo hi : ℝ) :
    Ok (get_bin_edges t lo hi) (Is1 · (Utils.get_bin_edges x lo hi)) := by
  refine (jax_get_dt_array_ok h).bind fun db hdb => ?_
  rw [size_1 hdb]
  refine (map2_11 h (hdb.map (· / 2))).bind fun d hd => ?_
  refine (setInit_1 (zeros1_1 _) hd).bind fun e he => ?_
  refine (setFirst_1 he (Is0.scal lo)).bind fun e' he' => ?_
  exact setLast_1 he' (Is0.scal hi)

theorem tw_cuml_kern_ok {x m h : Arr ℝ} {a b c : ℝ} (hx : Is0 x a) (hm : Is0 m b) (hh : Is0 h c) :
    Ok (tw_cuml_kern x m h) (Is0 · (Utils.tw_cuml_kern a b c)) := by
  refine (map2_00 hx hm).bind fun d hd => ?_
  refine (map2_00 hd hh).bind fun z hz => ?_
  refine (where_000 (hz.map _) (Is0.scal 0) (hz.map _)).bind fun v hv => ?_
  exact where_000 (hz.map _) (Is0.scal 1) hv

theorem triweighted_histogram_kernel_ok {x s lo hi : Arr ℝ} {a b c d : ℝ} (hx : Is0 x a) (hs : Is0 s b) (hl : Is0 lo c)
    (hh : Is0 hi d) :
    Ok (triweighted_histogram_kernel x s lo hi) (Is0 · (Utils.triweighted_histogram_kernel a b c d)) := by
  refine (tw_cuml_kern_ok hx hl hs).bind fun u hu => ?_
  refine (tw_cuml_kern_ok hx hh hs).bind fun v hv => ?_
  exact map2_00 hu hv

theorem triweighted_histogram_ok {x s bins : Arr ℝ} {a b : ℝ} {e : Fin (n + 2) → ℝ} (hx : Is0 x a) (hs : Is0 s b)
    (he : Is1 bins e) : Ok (triweighted_histogram x s bins) (Is1 · (Utils.triweighted_histogram a b e)) := by
  refine (sliceInit_1 he).bind fun lo hlo => ?_
  refine (sliceTail_1 he).bind fun hi hhi => ?_
  exact vmapTwo_1 hlo hhi fun u v c d hu hv => triweighted_histogram_kernel_ok hx hs hu hv

theorem fill_empty_ok {x bins wt : Arr ℝ} {a : ℝ} {e : Fin (n + 2) → ℝ} {v : Fin (n + 1) → ℝ} (hx : Is0 x a)
    (he : Is1 bins e) (hw : Is1 wt v) :
    Ok (fill_empty_weights_singlepoint x bins wt) (Is1 · (Utils.fill_empty_weights_singlepoint a e v)) := by
  classical
  refine (all0_1 (hw.map _)).bind fun z hz => ?_
  refine (idx_1 he 0).bind fun e0 he0 => ?_
  refine (map2_00 hx he0).bind fun lm hlm => ?_
  refine (idxLast_1 he).bind fun e1 he1 => ?_
  refine (map2_00 hx he1).bind fun hm hhm => ?_
  rw [size_1 he]
  refine (setFirst_1 (zeros1_1 (n + 1)) (Is0.scal 1.0)).bind fun lr hlr => ?_
  refine (setLast_1 (zeros1_1 (n + 1)) (Is0.scal 1.0)).bind fun hr hhr => ?_
  refine (map2_00 hz hlm).bind fun c hc => ?_
  refine (where_011 hc hlr hw).bind fun w' hw' => ?_
  refine (map2_00 hz hhm).bind fun c' hc' => ?_
  refine (where_011 hc' hhr hw').mono fun r hr => hr.congr fun i => ?_
  simp only [Utils.fill_empty_weights_singlepoint]

theorem singlegal_ok {x s bins : Arr ℝ} {a b : ℝ} {e : Fin (n + 2) → ℝ} (hx : Is0 x a) (hs : Is0 s b) (he : Is1 bins e) :
    Ok (get_lgmet_weights_singlegal x s bins) (Is1 · (MetallicityWeights.get_lgmet_weights_singlegal a b e)) := by
  classical
  refine (triweighted_histogram_ok hx hs he).bind fun t ht => ?_
  refine (sum0_1 ht).bind fun ts hts => ?_
  refine (where_000 (hts.map _) (Is0.scal 1.0) hts).bind fun tn htn => ?_
  refine (map2_10 ht htn).bind fun wt hwt => ?_
  refine (fill_empty_ok hx he hwt).mono fun r hr => hr.congr fun i => ?_
  simp only [MetallicityWeights.get_lgmet_weights_singlegal]

theorem cumtrapz_ok {x y : Arr ℝ} {a b : Fin (n + 1) → ℝ} (hx : Is1 x a) (hy : Is1 y b) :
    Ok (cumtrapz x y) (Is1 · (Utils.cumtrapz a b)) := by
  refine (idx_1 hx 0).bind fun x0 hx0 => ?_
  refine (idx_1 hy 0).bind fun y0 hy0 => ?_
  rw [hx.1, hy.1]
  simp only [if_true]
  refine ⟨_, rfl, rfl, fun i => ?_⟩
  simp only [i.2, dif_pos, Utils.cumtrapz, hx0.2, hy0.2, hx.2, hy.2]

theorem cumulative_ok {t s : Arr ℝ} {a b : Fin n → ℝ} (ht : Is1 t a) (hs : Is1 s b) :
    Ok (cumulative_mstar_formed t s) (Is1 · (Utils.cumulative_mstar_formed a b)) := by
  simp only [cumulative_mstar_formed]
  rw [size_1 ht]
  refine (setFirst_1 (zeros1_1 (n + 1)) (Is0.scal _)).bind fun p hp => ?_
  refine (setTail_1 hp ht).bind fun p' hp' => ?_
  refine (setFirst_1 (zeros1_1 (n + 1)) (Is0.scal _)).bind fun q hq => ?_
  refine (setTail_1 hq hs).bind fun q' hq' => ?_
  refine (cumtrapz_ok hp' hq').bind fun c hc => ?_
  refine (sliceTail_1 hc).bind fun c' hc' => ?_
  exact .pure (hc'.map _)

theorem lgt_birth_ok {t a : Arr ℝ} {x : ℝ} {y : Fin n → ℝ} (ht : Is0 t x) (ha : Is1 a y) :
    Ok (get_lgt_birth t a) (Is1 · fun i => StellarAgeWeights.get_lgt_birth x (y i)) := by
  refine (map2_01 ht (ha.map _)).bind fun b hb => ?_
  refine (where_101 (hb.map _) (Is0.scal _) hb).bind fun c hc => ?_
  exact .pure (hc.map _)

theorem lg_age_bin_edges_ok {a : Arr ℝ} {x : Fin (n + 3) → ℝ} (h : Is1 a x) :
    Ok (get_lg_age_bin_edges a) (Is1 · (StellarAgeWeights.get_lg_age_bin_edges x)) := by
  refine (jax_get_dt_array_ok h).bind fun db hdb => ?_
  rw [size_1 hdb]
  refine (map2_11 h (hdb.map (· / 2))).bind fun d hd => ?_
  refine (setInit_1 (zeros1_1 _) hd).bind fun e he => ?_
  refine (idx_1 h 0).bind fun a0 ha0 => ?_
  refine (idx_1 h 1).bind fun a1 ha1 => ?_
  refine (map2_00 ha1 ha0).bind fun d1 hd1 => ?_
  refine (map2_00 ha0 (hd1.map _)).bind fun l hl => ?_
  refine (idxLast_1 h).bind fun al hal => ?_
  refine (idxLast_1 hdb).bind fun dl hdl => ?_
  refine (map2_00 hal (hdl.map _)).bind fun hg hhg => ?_
  refine (setFirst_1 he hl).bind fun e' he' => ?_
  exact setLast_1 he' hhg

theorem logsm_ok {t s c : Arr ℝ} {a b : Fin n → ℝ} {x : ℝ} (ht : Is1 t a) (hs : Is1 s b) (hc : Is0 c x) :
    Ok (calc_logsm_table_from_sfh_table t s c)
      (Is1 · (StellarAgeWeights.calc_logsm_table_from_sfh_table a b x)) := by
  refine (map2_10 hs hc).bind fun p hp => ?_
  refine (where_101 hp hc hs).bind fun g hg => ?_
  refine (cumulative_ok ht hg).bind fun q hq => ?_
  exact .pure (hq.map _)

theorem age_from_logsm_ok {lt ls ag t : Arr ℝ} {a b : Fin (n + 2) → ℝ} {c : Fin (m + 3) → ℝ} {x : ℝ} (hlt : Is1 lt a)
    (hls : Is1 ls b) (hag : Is1 ag c) (ht : Is0 t x) :
    Ok (calc_age_weights_from_logsm_table lt ls ag t) fun r =>
      Is1 r.1 (StellarAgeWeights.calc_age_weights_from_logsm_table a b c x).1 ∧
      Is1 r.2 (StellarAgeWeights.calc_age_weights_from_logsm_table a b c x).2 := by
  refine (lg_age_bin_edges_ok hag).bind fun e he => ?_
  refine (lgt_birth_ok ht he).bind fun be hbe => ?_
  refine (lgt_birth_ok ht hag).bind fun bm hbm => ?_
  refine (interp_1 hbe hlt hls).bind fun q hq => ?_
  refine (diff_1 (hq.map _)).bind fun d hd => ?_
  refine (map2_10 (hd.map _) (sumAll_1 (hd.map _))).bind fun v hv => ?_
  exact .pure ⟨hbm, hv⟩

theorem age_weights_ok {t s ag tob c : Arr ℝ} {a b : Fin (n + 2) → ℝ} {g : Fin (m + 3) → ℝ} {x y : ℝ} (ht : Is1 t a)
    (hs : Is1 s b) (hag : Is1 ag g) (hto : Is0 tob x) (hc : Is0 c y) :
    Ok (calc_age_weights_from_sfh_table t s ag tob c)
      (Is1 · (StellarAgeWeights.calc_age_weights_from_sfh_table a b g x y)) := by
  refine (logsm_ok ht hs hc).bind fun l hl => ?_
  refine (age_from_logsm_ok (ht.map _) hl hag hto).bind fun r hr => ?_
  exact .pure hr.2

theorem lognormal_met_ok {z s l : Arr ℝ} {a b : ℝ} {c : Fin (k + 3) → ℝ} (hz : Is0 z a) (hs : Is0 s b) (hl : Is1 l c) :
    Ok (calc_lgmet_weights_from_lognormal_mdf z s l)
      (Is1 · (MetallicityWeights.calc_lgmet_weights_from_lognormal_mdf a b c)) := by
  refine (get_bin_edges_ok hl _ _).bind fun e he => ?_
  exact singlegal_ok hz hs he

theorem lgmet_at_ages_ok {t z ag tob : Arr ℝ} {a b : Fin (n + 2) → ℝ} {g : Fin m → ℝ} {x : ℝ} (ht : Is1 t a)
    (hz : Is1 z b) (hag : Is1 ag g) (hto : Is0 tob x) :
    Ok (calc_lgmet_at_ssp_lgage_table t z ag tob)
      (Is1 · (MetallicityWeights.calc_lgmet_at_ssp_lgage_table a b g x)) := by
  refine (lgt_birth_ok hto hag).bind fun l hl => ?_
  exact interp_1 hl (ht.map _) hz

theorem met_table_ok {t z s l ag tob : Arr ℝ} {a b : Fin (n + 2) → ℝ} {c : ℝ} {d : Fin (k + 3) → ℝ} {g : Fin (m + 1) → ℝ}
    {x : ℝ} (ht : Is1 t a) (hz : Is1 z b) (hs : Is0 s c) (hl : Is1 l d) (hag : Is1 ag g) (hto : Is0 tob x) :
    Ok (calc_lgmet_weights_from_lgmet_table t z s l ag tob)
      (Is2 · (MetallicityWeights.calc_lgmet_weights_from_lgmet_table a b c d g x)) := by
  refine (lgmet_at_ages_ok ht hz hag hto).bind fun la hla => ?_
  refine (get_bin_edges_ok hl _ _).bind fun e he => ?_
  refine (vmap_1_1 hla fun u v hu => singlegal_ok hu hs he).bind fun q hq => ?_
  rw [size_1 hag]
  exact swap01_2 (hq.map _)

/-- what the documentation of both weight functions promises -/
def IsWeights {L : Type} (W : SSPWeights) (IsL : Arr ℝ → L → Prop) (V : SspWeights.SSPWeights n m L) : Prop :=
  Is2 W.weights V.weights ∧ IsL W.lgmet_weights V.lgmet_weights ∧ Is1 W.age_weights V.age_weights

theorem ssp_weights_lognormal_ok {t s z sg l ag tob : Arr ℝ} {a b : Fin (n + 2) → ℝ} {zv sv x : ℝ} {d : Fin (k + 3) → ℝ}
    {g : Fin (m + 3) → ℝ} (ht : Is1 t a) (hs : Is1 s b) (hz : Is0 z zv) (hsg : Is0 sg sv) (hl : Is1 l d) (hag : Is1 ag g)
    (hto : Is0 tob x) :
    Ok (calc_ssp_weights_sfh_table_lognormal_mdf t s z sg l ag tob) fun W =>
      IsWeights W (fun a f => Is1 a f)
        (SspWeights.calc_ssp_weights_sfh_table_lognormal_mdf a b zv sv d g x) := by
  refine (age_weights_ok ht hs hag hto (Is0.scal _)).bind fun aw haw => ?_
  refine (lognormal_met_ok hz hsg hl).bind fun lw hlw => ?_
  refine (reshape_col hlw).bind fun c hc => ?_
  refine (reshape_row haw).bind fun r hr => ?_
  refine (map2_outer hc hr).bind fun v hv => ?_
  refine (map2_20 hv (sumAll_2 hv)).bind fun v' hv' => ?_
  exact .pure ⟨hv', hlw, haw⟩

theorem ssp_weights_met_table_ok {t s z sg l ag tob : Arr ℝ} {a b zt : Fin (n + 2) → ℝ} {sv x : ℝ} {d : Fin (k + 3) → ℝ}
    {g : Fin (m + 3) → ℝ} (ht : Is1 t a) (hs : Is1 s b) (hz : Is1 z zt) (hsg : Is0 sg sv) (hl : Is1 l d) (hag : Is1 ag g)
    (hto : Is0 tob x) :
    Ok (calc_ssp_weights_sfh_table_met_table t s z sg l ag tob) fun W =>
      IsWeights W (fun a f => Is2 a f)
        (SspWeights.calc_ssp_weights_sfh_table_met_table a b zt sv d g x) := by
  refine (age_weights_ok ht hs hag hto (Is0.scal _)).bind fun aw haw => ?_
  refine (met_table_ok ht hz hsg hl hag hto).bind fun lw hlw => ?_
  refine (reshape_row haw).bind fun r hr => ?_
  refine (map2_row hlw hr).bind fun v hv => ?_
  refine (map2_20 hv (sumAll_2 hv)).bind fun v' hv' => ?_
  exact .pure ⟨hv', hlw, haw⟩

end Dsps.NdSed
