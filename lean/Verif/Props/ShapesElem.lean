import Verif.Lemmas.NdElemFun

/-! C130: the formulas of the package on arrays of any shapes.

For every function: if the shapes of the arguments (data and parameters alike) broadcast, the call returns an array of the broadcast shape, and its element
at each position is the scalar formula applied to the elements of the arguments that this position broadcasts from; if the shapes do not broadcast, the call
raises.  `Broadcasts` states numpy's rule directly (no pairwise evaluation), and `a.bat idx` is the element of `a` used at position `idx`. -/
namespace Dsps.Props
open Nd Dsps Dsps.Lemmas

/-- C130: `sigmoid` -/
theorem C130_sigmoid (x x0 k ylo yhi : Arr ℝ) :
    Elementwise [x.shape, x0.shape, k.shape, ylo.shape, yhi.shape]
      (NdElem.sigmoid (.arr x) (.arr x0) (.arr k) (.arr ylo) (.arr yhi))
      (fun i => Utils.sigmoid (x.bat i) (x0.bat i) (k.bat i) (ylo.bat i) (yhi.bat i)) :=
  Elw.elementwise (elw_sigmoid (Elw.arr x) (Elw.arr x0) (Elw.arr k) (Elw.arr ylo) (Elw.arr yhi)) (by
    ext; simp only [Set.mem_union, Set.mem_singleton_iff, Set.mem_setOf_eq, List.mem_cons, List.not_mem_nil, or_false, or_assoc])

/-- C130: `inverse_sigmoid` -/
theorem C130_inverse_sigmoid (y x0 k ylo yhi : Arr ℝ) :
    Elementwise [y.shape, x0.shape, k.shape, ylo.shape, yhi.shape]
      (NdElem.inverse_sigmoid (.arr y) (.arr x0) (.arr k) (.arr ylo) (.arr yhi))
      (fun i => Utils.inverse_sigmoid (y.bat i) (x0.bat i) (k.bat i) (ylo.bat i) (yhi.bat i)) :=
  Elw.elementwise (elw_inverse_sigmoid (Elw.arr y) (Elw.arr x0) (Elw.arr k) (Elw.arr ylo) (Elw.arr yhi)) (by
    ext; simp only [Set.mem_union, Set.mem_singleton_iff, Set.mem_setOf_eq, List.mem_cons, List.not_mem_nil, or_false, or_assoc])

/-- C130: `sig_slope` -/
theorem C130_sig_slope (x xtp ytp x0 slope_k lo hi : Arr ℝ) :
    Elementwise [x.shape, xtp.shape, ytp.shape, x0.shape, slope_k.shape, lo.shape, hi.shape]
      (NdElem.sig_slope (.arr x) (.arr xtp) (.arr ytp) (.arr x0) (.arr slope_k) (.arr lo) (.arr hi))
      (fun i => Utils.sig_slope (x.bat i) (xtp.bat i) (ytp.bat i) (x0.bat i) (slope_k.bat i) (lo.bat i) (hi.bat i)) :=
  Elw.elementwise (elw_sig_slope (Elw.arr x) (Elw.arr xtp) (Elw.arr ytp) (Elw.arr x0) (Elw.arr slope_k) (Elw.arr lo) (Elw.arr hi)) (by
    ext; simp only [Set.mem_union, Set.mem_singleton_iff, Set.mem_setOf_eq, List.mem_cons, List.not_mem_nil, or_false, or_assoc])

/-- C130: `tw_cuml_kern` -/
theorem C130_tw_cuml_kern (x m h : Arr ℝ) :
    Elementwise [x.shape, m.shape, h.shape]
      (NdElem.tw_cuml_kern (.arr x) (.arr m) (.arr h))
      (fun i => Utils.tw_cuml_kern (x.bat i) (m.bat i) (h.bat i)) :=
  Elw.elementwise (elw_tw_cuml_kern (Elw.arr x) (Elw.arr m) (Elw.arr h)) (by
    ext; simp only [Set.mem_union, Set.mem_singleton_iff, Set.mem_setOf_eq, List.mem_cons, List.not_mem_nil, or_false, or_assoc])

/-- C130: `tw_sigmoid` -/
theorem C130_tw_sigmoid (x x0 tw_h ymin ymax : Arr ℝ) :
    Elementwise [x.shape, x0.shape, tw_h.shape, ymin.shape, ymax.shape]
      (NdElem.tw_sigmoid (.arr x) (.arr x0) (.arr tw_h) (.arr ymin) (.arr ymax))
      (fun i => Utils.tw_sigmoid (x.bat i) (x0.bat i) (tw_h.bat i) (ymin.bat i) (ymax.bat i)) :=
  Elw.elementwise (elw_tw_sigmoid (Elw.arr x) (Elw.arr x0) (Elw.arr tw_h) (Elw.arr ymin) (Elw.arr ymax)) (by
    ext; simp only [Set.mem_union, Set.mem_singleton_iff, Set.mem_setOf_eq, List.mem_cons, List.not_mem_nil, or_false, or_assoc])

/-- C130: `triweighted_histogram_kernel` -/
theorem C130_triweighted_histogram_kernel (x sig lo hi : Arr ℝ) :
    Elementwise [x.shape, sig.shape, lo.shape, hi.shape]
      (NdElem.triweighted_histogram_kernel (.arr x) (.arr sig) (.arr lo) (.arr hi))
      (fun i => Utils.triweighted_histogram_kernel (x.bat i) (sig.bat i) (lo.bat i) (hi.bat i)) :=
  Elw.elementwise (elw_triweighted_histogram_kernel (Elw.arr x) (Elw.arr sig) (Elw.arr lo) (Elw.arr hi)) (by
    ext; simp only [Set.mem_union, Set.mem_singleton_iff, Set.mem_setOf_eq, List.mem_cons, List.not_mem_nil, or_false, or_assoc])

/-- C130: `triweight_gaussian` -/
theorem C130_triweight_gaussian (x m h : Arr ℝ) :
    Elementwise [x.shape, m.shape, h.shape]
      (NdElem.triweight_gaussian (.arr x) (.arr m) (.arr h))
      (fun i => Utils.triweight_gaussian (x.bat i) (m.bat i) (h.bat i)) :=
  Elw.elementwise (elw_triweight_gaussian (Elw.arr x) (Elw.arr m) (Elw.arr h)) (by
    ext; simp only [Set.mem_union, Set.mem_singleton_iff, Set.mem_setOf_eq, List.mem_cons, List.not_mem_nil, or_false, or_assoc])

/-- C130: `tw_sig_slope` -/
theorem C130_tw_sig_slope (x xtp ytp x0 tw_h lo hi : Arr ℝ) :
    Elementwise [x.shape, xtp.shape, ytp.shape, x0.shape, tw_h.shape, lo.shape, hi.shape]
      (NdElem.tw_sig_slope (.arr x) (.arr xtp) (.arr ytp) (.arr x0) (.arr tw_h) (.arr lo) (.arr hi))
      (fun i => Utils.tw_sig_slope (x.bat i) (xtp.bat i) (ytp.bat i) (x0.bat i) (tw_h.bat i) (lo.bat i) (hi.bat i)) :=
  Elw.elementwise (elw_tw_sig_slope (Elw.arr x) (Elw.arr xtp) (Elw.arr ytp) (Elw.arr x0) (Elw.arr tw_h) (Elw.arr lo) (Elw.arr hi)) (by
    ext; simp only [Set.mem_union, Set.mem_singleton_iff, Set.mem_setOf_eq, List.mem_cons, List.not_mem_nil, or_false, or_assoc])

/-- C130: `powerlaw_pdf` -/
theorem C130_powerlaw_pdf (x a b g : Arr ℝ) :
    Elementwise [x.shape, a.shape, b.shape, g.shape]
      (NdElem.powerlaw_pdf (.arr x) (.arr a) (.arr b) (.arr g))
      (fun i => Utils.powerlaw_pdf (x.bat i) (a.bat i) (b.bat i) (g.bat i)) :=
  Elw.elementwise (elw_powerlaw_pdf (Elw.arr x) (Elw.arr a) (Elw.arr b) (Elw.arr g)) (by
    ext; simp only [Set.mem_union, Set.mem_singleton_iff, Set.mem_setOf_eq, List.mem_cons, List.not_mem_nil, or_false, or_assoc])

/-- C130: `log_remnant_mass` -/
theorem C130_log_remnant_mass (lg_age_yr a b lgk1 d e : Arr ℝ) :
    Elementwise [lg_age_yr.shape, a.shape, b.shape, lgk1.shape, d.shape, e.shape]
      (NdElem.log_remnant_mass (.arr lg_age_yr) (.arr a) (.arr b) (.arr lgk1) (.arr d) (.arr e))
      (fun i => RemnantMass.log_remnant_mass (lg_age_yr.bat i) (a.bat i) (b.bat i) (lgk1.bat i) (d.bat i) (e.bat i)) :=
  Elw.elementwise (elw_log_remnant_mass (Elw.arr lg_age_yr) (Elw.arr a) (Elw.arr b) (Elw.arr lgk1) (Elw.arr d) (Elw.arr e)) (by
    ext; simp only [Set.mem_union, Set.mem_singleton_iff, Set.mem_setOf_eq, List.mem_cons, List.not_mem_nil, or_false, or_assoc])

/-- C130: `returned_mass` -/
theorem C130_returned_mass (lg_age_yr a b lgk1 d e f lgk2 h : Arr ℝ) :
    Elementwise [lg_age_yr.shape, a.shape, b.shape, lgk1.shape, d.shape, e.shape, f.shape, lgk2.shape, h.shape]
      (NdElem.returned_mass (.arr lg_age_yr) (.arr a) (.arr b) (.arr lgk1) (.arr d) (.arr e) (.arr f) (.arr lgk2) (.arr h))
      (fun i => SurvivingMstar.returned_mass (lg_age_yr.bat i) (a.bat i) (b.bat i) (lgk1.bat i) (d.bat i) (e.bat i) (f.bat i) (lgk2.bat i) (h.bat i)) :=
  Elw.elementwise (elw_returned_mass (Elw.arr lg_age_yr) (Elw.arr a) (Elw.arr b) (Elw.arr lgk1) (Elw.arr d) (Elw.arr e) (Elw.arr f) (Elw.arr lgk2) (Elw.arr h)) (by
    ext; simp only [Set.mem_union, Set.mem_singleton_iff, Set.mem_setOf_eq, List.mem_cons, List.not_mem_nil, or_false, or_assoc])

/-- C130: `surviving_mstar` -/
theorem C130_surviving_mstar (lg_age_yr a b lgk1 d e f lgk2 h : Arr ℝ) :
    Elementwise [lg_age_yr.shape, a.shape, b.shape, lgk1.shape, d.shape, e.shape, f.shape, lgk2.shape, h.shape]
      (NdElem.surviving_mstar (.arr lg_age_yr) (.arr a) (.arr b) (.arr lgk1) (.arr d) (.arr e) (.arr f) (.arr lgk2) (.arr h))
      (fun i => SurvivingMstar.surviving_mstar (lg_age_yr.bat i) ⟨a.bat i, b.bat i, lgk1.bat i, d.bat i, e.bat i, f.bat i, lgk2.bat i, h.bat i⟩) :=
  Elw.elementwise (elw_surviving_mstar (Elw.arr lg_age_yr) (Elw.arr a) (Elw.arr b) (Elw.arr lgk1) (Elw.arr d) (Elw.arr e) (Elw.arr f) (Elw.arr lgk2) (Elw.arr h)) (by
    ext; simp only [Set.mem_union, Set.mem_singleton_iff, Set.mem_setOf_eq, List.mem_cons, List.not_mem_nil, or_false, or_assoc])

/-- C130: `mzr_model_t0` -/
theorem C130_mzr_model_t0 (logsm y0 x0 k slope_lo slope_hi : Arr ℝ) :
    Elementwise [logsm.shape, y0.shape, x0.shape, k.shape, slope_lo.shape, slope_hi.shape]
      (NdElem.mzr_model_t0 (.arr logsm) (.arr y0) (.arr x0) (.arr k) (.arr slope_lo) (.arr slope_hi))
      (fun i => Mzr.mzr_model_t0 (logsm.bat i) (y0.bat i) (x0.bat i) (k.bat i) (slope_lo.bat i) (slope_hi.bat i)) :=
  Elw.elementwise (elw_mzr_model_t0 (Elw.arr logsm) (Elw.arr y0) (Elw.arr x0) (Elw.arr k) (Elw.arr slope_lo) (Elw.arr slope_hi)) (by
    ext; simp only [Set.mem_union, Set.mem_singleton_iff, Set.mem_setOf_eq, List.mem_cons, List.not_mem_nil, or_false, or_assoc])

/-- C130: `maiolino08_metallicity_evolution` -/
theorem C130_maiolino08_metallicity_evolution (logsm logm0 k0 : Arr ℝ) :
    Elementwise [logsm.shape, logm0.shape, k0.shape]
      (NdElem.maiolino08_metallicity_evolution (.arr logsm) (.arr logm0) (.arr k0))
      (fun i => Mzr.maiolino08_metallicity_evolution (logsm.bat i) (logm0.bat i) (k0.bat i)) :=
  Elw.elementwise (elw_maiolino08_metallicity_evolution (Elw.arr logsm) (Elw.arr logm0) (Elw.arr k0)) (by
    ext; simp only [Set.mem_union, Set.mem_singleton_iff, Set.mem_setOf_eq, List.mem_cons, List.not_mem_nil, or_false, or_assoc])

/-- C130: `delta_logz_vs_t_lookback` -/
theorem C130_delta_logz_vs_t_lookback (t_lookback y_at_tc tc early k : Arr ℝ) :
    Elementwise [t_lookback.shape, y_at_tc.shape, tc.shape, early.shape, k.shape]
      (NdElem.delta_logz_vs_t_lookback (.arr t_lookback) (.arr y_at_tc) (.arr tc) (.arr early) (.arr k))
      (fun i => Mzr.delta_logz_vs_t_lookback (t_lookback.bat i) (y_at_tc.bat i) (tc.bat i) (early.bat i) (k.bat i)) :=
  Elw.elementwise (elw_delta_logz_vs_t_lookback (Elw.arr t_lookback) (Elw.arr y_at_tc) (Elw.arr tc) (Elw.arr early) (Elw.arr k)) (by
    ext; simp only [Set.mem_union, Set.mem_singleton_iff, Set.mem_setOf_eq, List.mem_cons, List.not_mem_nil, or_false, or_assoc])

/-- C130: `delta_logz_at_t_lookback` -/
theorem C130_delta_logz_at_t_lookback (lgmstar t_lookback c0y c1y tlook_c c0e c1e : Arr ℝ) :
    Elementwise [lgmstar.shape, t_lookback.shape, c0y.shape, c1y.shape, tlook_c.shape, c0e.shape, c1e.shape]
      (NdElem.delta_logz_at_t_lookback (.arr lgmstar) (.arr t_lookback) (.arr c0y) (.arr c1y) (.arr tlook_c) (.arr c0e) (.arr c1e))
      (fun i => Mzr.delta_logz_at_t_lookback (lgmstar.bat i) (t_lookback.bat i) (c0y.bat i) (c1y.bat i) (tlook_c.bat i) (c0e.bat i) (c1e.bat i)) :=
  Elw.elementwise (elw_delta_logz_at_t_lookback (Elw.arr lgmstar) (Elw.arr t_lookback) (Elw.arr c0y) (Elw.arr c1y) (Elw.arr tlook_c) (Elw.arr c0e) (Elw.arr c1e)) (by
    ext; simp only [Set.mem_union, Set.mem_singleton_iff, Set.mem_setOf_eq, List.mem_cons, List.not_mem_nil, or_false, or_assoc])

/-- C130: `mzr_evolution_model` -/
theorem C130_mzr_evolution_model (logsm t c0y c1y tlook_c c0e c1e : Arr ℝ) :
    Elementwise [logsm.shape, t.shape, c0y.shape, c1y.shape, tlook_c.shape, c0e.shape, c1e.shape]
      (NdElem.mzr_evolution_model (.arr logsm) (.arr t) (.arr c0y) (.arr c1y) (.arr tlook_c) (.arr c0e) (.arr c1e))
      (fun i => Mzr.mzr_evolution_model (logsm.bat i) (t.bat i) (c0y.bat i) (c1y.bat i) (tlook_c.bat i) (c0e.bat i) (c1e.bat i)) :=
  Elw.elementwise (elw_mzr_evolution_model (Elw.arr logsm) (Elw.arr t) (Elw.arr c0y) (Elw.arr c1y) (Elw.arr tlook_c) (Elw.arr c0e) (Elw.arr c1e)) (by
    ext; simp only [Set.mem_union, Set.mem_singleton_iff, Set.mem_setOf_eq, List.mem_cons, List.not_mem_nil, or_false, or_assoc])

/-- C130: `mzr_model` -/
theorem C130_mzr_model (logsm t y0 x0 k slope_lo slope_hi c0y c1y tlook_c c0e c1e : Arr ℝ) :
    Elementwise [logsm.shape, t.shape, y0.shape, x0.shape, k.shape, slope_lo.shape, slope_hi.shape, c0y.shape, c1y.shape, tlook_c.shape, c0e.shape, c1e.shape]
      (NdElem.mzr_model (.arr logsm) (.arr t) (.arr y0) (.arr x0) (.arr k) (.arr slope_lo) (.arr slope_hi) (.arr c0y) (.arr c1y) (.arr tlook_c) (.arr c0e) (.arr c1e))
      (fun i => Mzr.mzr_model (logsm.bat i) (t.bat i) (y0.bat i) (x0.bat i) (k.bat i) (slope_lo.bat i) (slope_hi.bat i) (c0y.bat i) (c1y.bat i) (tlook_c.bat i) (c0e.bat i) (c1e.bat i)) :=
  Elw.elementwise (elw_mzr_model (Elw.arr logsm) (Elw.arr t) (Elw.arr y0) (Elw.arr x0) (Elw.arr k) (Elw.arr slope_lo) (Elw.arr slope_hi) (Elw.arr c0y) (Elw.arr c1y) (Elw.arr tlook_c) (Elw.arr c0e) (Elw.arr c1e)) (by
    ext; simp only [Set.mem_union, Set.mem_singleton_iff, Set.mem_setOf_eq, List.mem_cons, List.not_mem_nil, or_false, or_assoc])

/-- C130: `att_curve_from_k_lambda` -/
theorem C130_att_curve_from_k_lambda (k_lambda av : Arr ℝ) :
    Elementwise [k_lambda.shape, av.shape]
      (NdElem.att_curve_from_k_lambda (.arr k_lambda) (.arr av))
      (fun i => Dust.att_curve_from_k_lambda (k_lambda.bat i) (av.bat i)) :=
  Elw.elementwise (elw_att_curve_from_k_lambda (Elw.arr k_lambda) (Elw.arr av)) (by
    ext; simp only [Set.mem_union, Set.mem_singleton_iff, Set.mem_setOf_eq, List.mem_cons, List.not_mem_nil, or_false, or_assoc])

/-- C130: `frac_transmission_from_k_lambda` -/
theorem C130_frac_transmission_from_k_lambda (k_lambda av ftrans_floor : Arr ℝ) :
    Elementwise [k_lambda.shape, av.shape, ftrans_floor.shape]
      (NdElem.frac_transmission_from_k_lambda (.arr k_lambda) (.arr av) (.arr ftrans_floor))
      (fun i => Dust.frac_transmission_from_k_lambda (k_lambda.bat i) (av.bat i) (ftrans_floor.bat i)) :=
  Elw.elementwise (elw_frac_transmission_from_k_lambda (Elw.arr k_lambda) (Elw.arr av) (Elw.arr ftrans_floor)) (by
    ext; simp only [Set.mem_union, Set.mem_singleton_iff, Set.mem_setOf_eq, List.mem_cons, List.not_mem_nil, or_false, or_assoc])

/-- C130: `calzetti00_k_lambda` -/
theorem C130_calzetti00_k_lambda (wave_micron : Arr ℝ) :
    Elementwise [wave_micron.shape]
      (NdElem.calzetti00_k_lambda (.arr wave_micron))
      (fun i => Dust.calzetti00_k_lambda (wave_micron.bat i)) :=
  Elw.elementwise (elw_calzetti00_k_lambda (Elw.arr wave_micron)) (by
    ext; simp only [Set.mem_union, Set.mem_singleton_iff, Set.mem_setOf_eq, List.mem_cons, List.not_mem_nil, or_false, or_assoc])

/-- C130: `leitherer02_k_lambda` -/
theorem C130_leitherer02_k_lambda (wave_micron : Arr ℝ) :
    Elementwise [wave_micron.shape]
      (NdElem.leitherer02_k_lambda (.arr wave_micron))
      (fun i => Dust.leitherer02_k_lambda (wave_micron.bat i)) :=
  Elw.elementwise (elw_leitherer02_k_lambda (Elw.arr wave_micron)) (by
    ext; simp only [Set.mem_union, Set.mem_singleton_iff, Set.mem_setOf_eq, List.mem_cons, List.not_mem_nil, or_false, or_assoc])

/-- C130: `l02_below_c00_above` -/
theorem C130_l02_below_c00_above (wave_micron xc : Arr ℝ) :
    Elementwise [wave_micron.shape, xc.shape]
      (NdElem.l02_below_c00_above (.arr wave_micron) (.arr xc))
      (fun i => Dust.l02_below_c00_above (wave_micron.bat i) (xc.bat i)) :=
  Elw.elementwise (elw_l02_below_c00_above (Elw.arr wave_micron) (Elw.arr xc)) (by
    ext; simp only [Set.mem_union, Set.mem_singleton_iff, Set.mem_setOf_eq, List.mem_cons, List.not_mem_nil, or_false, or_assoc])

/-- C130: `power_law_vband_norm` -/
theorem C130_power_law_vband_norm (wave_micron plaw_slope vband_micron : Arr ℝ) :
    Elementwise [wave_micron.shape, plaw_slope.shape, vband_micron.shape]
      (NdElem.power_law_vband_norm (.arr wave_micron) (.arr plaw_slope) (.arr vband_micron))
      (fun i => Dust.power_law_vband_norm (wave_micron.bat i) (plaw_slope.bat i) (vband_micron.bat i)) :=
  Elw.elementwise (elw_power_law_vband_norm (Elw.arr wave_micron) (Elw.arr plaw_slope) (Elw.arr vband_micron)) (by
    ext; simp only [Set.mem_union, Set.mem_singleton_iff, Set.mem_setOf_eq, List.mem_cons, List.not_mem_nil, or_false, or_assoc])

/-- C130: `drude_bump` -/
theorem C130_drude_bump (x x0 gamma ampl : Arr ℝ) :
    Elementwise [x.shape, x0.shape, gamma.shape, ampl.shape]
      (NdElem.drude_bump (.arr x) (.arr x0) (.arr gamma) (.arr ampl))
      (fun i => Dust.drude_bump (x.bat i) (x0.bat i) (gamma.bat i) (ampl.bat i)) :=
  Elw.elementwise (elw_drude_bump (Elw.arr x) (Elw.arr x0) (Elw.arr gamma) (Elw.arr ampl)) (by
    ext; simp only [Set.mem_union, Set.mem_singleton_iff, Set.mem_setOf_eq, List.mem_cons, List.not_mem_nil, or_false, or_assoc])

/-- C130: `noll09_k_lambda` -/
theorem C130_noll09_k_lambda (wave_micron uv_bump_ampl plaw_slope uv_bump uv_bump_width : Arr ℝ) :
    Elementwise [wave_micron.shape, uv_bump_ampl.shape, plaw_slope.shape, uv_bump.shape, uv_bump_width.shape]
      (NdElem.noll09_k_lambda (.arr wave_micron) (.arr uv_bump_ampl) (.arr plaw_slope) (.arr uv_bump) (.arr uv_bump_width))
      (fun i => Dust.noll09_k_lambda (wave_micron.bat i) (uv_bump_ampl.bat i) (plaw_slope.bat i) (uv_bump.bat i) (uv_bump_width.bat i)) :=
  Elw.elementwise (elw_noll09_k_lambda (Elw.arr wave_micron) (Elw.arr uv_bump_ampl) (Elw.arr plaw_slope) (Elw.arr uv_bump) (Elw.arr uv_bump_width)) (by
    ext; simp only [Set.mem_union, Set.mem_singleton_iff, Set.mem_setOf_eq, List.mem_cons, List.not_mem_nil, or_false, or_assoc])

/-- C130: `noll09_k_att_curve` -/
theorem C130_noll09_k_att_curve (wave_micron av uv_bump_ampl plaw_slope uv_bump uv_bump_width : Arr ℝ) :
    Elementwise [wave_micron.shape, av.shape, uv_bump_ampl.shape, plaw_slope.shape, uv_bump.shape, uv_bump_width.shape]
      (NdElem.noll09_k_att_curve (.arr wave_micron) (.arr av) (.arr uv_bump_ampl) (.arr plaw_slope) (.arr uv_bump) (.arr uv_bump_width))
      (fun i => Dust.noll09_k_att_curve (wave_micron.bat i) (av.bat i) (uv_bump_ampl.bat i) (plaw_slope.bat i) (uv_bump.bat i) (uv_bump_width.bat i)) :=
  Elw.elementwise (elw_noll09_k_att_curve (Elw.arr wave_micron) (Elw.arr av) (Elw.arr uv_bump_ampl) (Elw.arr plaw_slope) (Elw.arr uv_bump) (Elw.arr uv_bump_width)) (by
    ext; simp only [Set.mem_union, Set.mem_singleton_iff, Set.mem_setOf_eq, List.mem_cons, List.not_mem_nil, or_false, or_assoc])

/-- C130: `sbl18_k_lambda` -/
theorem C130_sbl18_k_lambda (wave_micron uv_bump_ampl plaw_slope uv_bump uv_bump_width : Arr ℝ) :
    Elementwise [wave_micron.shape, uv_bump_ampl.shape, plaw_slope.shape, uv_bump.shape, uv_bump_width.shape]
      (NdElem.sbl18_k_lambda (.arr wave_micron) (.arr uv_bump_ampl) (.arr plaw_slope) (.arr uv_bump) (.arr uv_bump_width))
      (fun i => Dust.sbl18_k_lambda (wave_micron.bat i) (uv_bump_ampl.bat i) (plaw_slope.bat i) (uv_bump.bat i) (uv_bump_width.bat i)) :=
  Elw.elementwise (elw_sbl18_k_lambda (Elw.arr wave_micron) (Elw.arr uv_bump_ampl) (Elw.arr plaw_slope) (Elw.arr uv_bump) (Elw.arr uv_bump_width)) (by
    ext; simp only [Set.mem_union, Set.mem_singleton_iff, Set.mem_setOf_eq, List.mem_cons, List.not_mem_nil, or_false, or_assoc])

/-- C130: `sbl18_k_att_curve` -/
theorem C130_sbl18_k_att_curve (wave_micron av uv_bump_ampl plaw_slope uv_bump uv_bump_width : Arr ℝ) :
    Elementwise [wave_micron.shape, av.shape, uv_bump_ampl.shape, plaw_slope.shape, uv_bump.shape, uv_bump_width.shape]
      (NdElem.sbl18_k_att_curve (.arr wave_micron) (.arr av) (.arr uv_bump_ampl) (.arr plaw_slope) (.arr uv_bump) (.arr uv_bump_width))
      (fun i => Dust.sbl18_k_att_curve (wave_micron.bat i) (av.bat i) (uv_bump_ampl.bat i) (plaw_slope.bat i) (uv_bump.bat i) (uv_bump_width.bat i)) :=
  Elw.elementwise (elw_sbl18_k_att_curve (Elw.arr wave_micron) (Elw.arr av) (Elw.arr uv_bump_ampl) (Elw.arr plaw_slope) (Elw.arr uv_bump) (Elw.arr uv_bump_width)) (by
    ext; simp only [Set.mem_union, Set.mem_singleton_iff, Set.mem_setOf_eq, List.mem_cons, List.not_mem_nil, or_false, or_assoc])

/-- C130: `calzetti00_att_curve` -/
theorem C130_calzetti00_att_curve (wave_micron av : Arr ℝ) :
    Elementwise [wave_micron.shape, av.shape]
      (NdElem.calzetti00_att_curve (.arr wave_micron) (.arr av))
      (fun i => Dust.calzetti00_att_curve (wave_micron.bat i) (av.bat i)) :=
  Elw.elementwise (elw_calzetti00_att_curve (Elw.arr wave_micron) (Elw.arr av)) (by
    ext; simp only [Set.mem_union, Set.mem_singleton_iff, Set.mem_setOf_eq, List.mem_cons, List.not_mem_nil, or_false, or_assoc])

/-- C130: `leitherer02_att_curve` -/
theorem C130_leitherer02_att_curve (wave_micron av : Arr ℝ) :
    Elementwise [wave_micron.shape, av.shape]
      (NdElem.leitherer02_att_curve (.arr wave_micron) (.arr av))
      (fun i => Dust.leitherer02_att_curve (wave_micron.bat i) (av.bat i)) :=
  Elw.elementwise (elw_leitherer02_att_curve (Elw.arr wave_micron) (Elw.arr av)) (by
    ext; simp only [Set.mem_union, Set.mem_singleton_iff, Set.mem_setOf_eq, List.mem_cons, List.not_mem_nil, or_false, or_assoc])

/-- C130: `triweight_k_lambda` -/
theorem C130_triweight_k_lambda (wave_micron xtp ytp x0 tw_h lo hi : Arr ℝ) :
    Elementwise [wave_micron.shape, xtp.shape, ytp.shape, x0.shape, tw_h.shape, lo.shape, hi.shape]
      (NdElem.triweight_k_lambda (.arr wave_micron) (.arr xtp) (.arr ytp) (.arr x0) (.arr tw_h) (.arr lo) (.arr hi))
      (fun i => Dust.triweight_k_lambda (wave_micron.bat i) (xtp.bat i) (ytp.bat i) (x0.bat i) (tw_h.bat i) (lo.bat i) (hi.bat i)) :=
  Elw.elementwise (elw_triweight_k_lambda (Elw.arr wave_micron) (Elw.arr xtp) (Elw.arr ytp) (Elw.arr x0) (Elw.arr tw_h) (Elw.arr lo) (Elw.arr hi)) (by
    ext; simp only [Set.mem_union, Set.mem_singleton_iff, Set.mem_setOf_eq, List.mem_cons, List.not_mem_nil, or_false, or_assoc])

/-- C130: `get_eb_from_delta` -/
theorem C130_get_eb_from_delta (delta : Arr ℝ) :
    Elementwise [delta.shape]
      (NdElem.get_eb_from_delta (.arr delta))
      (fun i => Dust.get_eb_from_delta (delta.bat i)) :=
  Elw.elementwise (elw_get_eb_from_delta (Elw.arr delta)) (by
    ext; simp only [Set.mem_union, Set.mem_singleton_iff, Set.mem_setOf_eq, List.mem_cons, List.not_mem_nil, or_false, or_assoc])

/-- C130: `freq_density_denom` -/
theorem C130_freq_density_denom (freq_hz temp_kelvin : Arr ℝ) :
    Elementwise [freq_hz.shape, temp_kelvin.shape]
      (NdElem.freq_density_denom (.arr freq_hz) (.arr temp_kelvin))
      (fun i => Blackbody.freq_density_denom (freq_hz.bat i) (temp_kelvin.bat i)) :=
  Elw.elementwise (elw_freq_density_denom (Elw.arr freq_hz) (Elw.arr temp_kelvin)) (by
    ext; simp only [Set.mem_union, Set.mem_singleton_iff, Set.mem_setOf_eq, List.mem_cons, List.not_mem_nil, or_false, or_assoc])

/-- C130: `blackbody_freq_density` -/
theorem C130_blackbody_freq_density (freq_hz temp_kelvin : Arr ℝ) :
    Elementwise [freq_hz.shape, temp_kelvin.shape]
      (NdElem.blackbody_freq_density (.arr freq_hz) (.arr temp_kelvin))
      (fun i => Blackbody.blackbody_freq_density (freq_hz.bat i) (temp_kelvin.bat i)) :=
  Elw.elementwise (elw_blackbody_freq_density (Elw.arr freq_hz) (Elw.arr temp_kelvin)) (by
    ext; simp only [Set.mem_union, Set.mem_singleton_iff, Set.mem_setOf_eq, List.mem_cons, List.not_mem_nil, or_false, or_assoc])

/-- C130: `wave_density_denom` -/
theorem C130_wave_density_denom (wave_meters temp_kelvin : Arr ℝ) :
    Elementwise [wave_meters.shape, temp_kelvin.shape]
      (NdElem.wave_density_denom (.arr wave_meters) (.arr temp_kelvin))
      (fun i => Blackbody.wave_density_denom (wave_meters.bat i) (temp_kelvin.bat i)) :=
  Elw.elementwise (elw_wave_density_denom (Elw.arr wave_meters) (Elw.arr temp_kelvin)) (by
    ext; simp only [Set.mem_union, Set.mem_singleton_iff, Set.mem_setOf_eq, List.mem_cons, List.not_mem_nil, or_false, or_assoc])

/-- C130: `blackbody_wave_density` -/
theorem C130_blackbody_wave_density (wave_aa temp_kelvin : Arr ℝ) :
    Elementwise [wave_aa.shape, temp_kelvin.shape]
      (NdElem.blackbody_wave_density (.arr wave_aa) (.arr temp_kelvin))
      (fun i => Blackbody.blackbody_wave_density (wave_aa.bat i) (temp_kelvin.bat i)) :=
  Elw.elementwise (elw_blackbody_wave_density (Elw.arr wave_aa) (Elw.arr temp_kelvin)) (by
    ext; simp only [Set.mem_union, Set.mem_singleton_iff, Set.mem_setOf_eq, List.mem_cons, List.not_mem_nil, or_false, or_assoc])

/-- C130: `rho_de_z` -/
theorem C130_rho_de_z (z w0 wa : Arr ℝ) :
    Elementwise [z.shape, w0.shape, wa.shape]
      (NdElem.rho_de_z (.arr z) (.arr w0) (.arr wa))
      (fun i => FlatWcdm.rho_de_z (z.bat i) (w0.bat i) (wa.bat i)) :=
  Elw.elementwise (elw_rho_de_z (Elw.arr z) (Elw.arr w0) (Elw.arr wa)) (by
    ext; simp only [Set.mem_union, Set.mem_singleton_iff, Set.mem_setOf_eq, List.mem_cons, List.not_mem_nil, or_false, or_assoc])

/-- C130: `Ez` -/
theorem C130_Ez (z Om0 w0 wa : Arr ℝ) :
    Elementwise [z.shape, Om0.shape, w0.shape, wa.shape]
      (NdElem.Ez (.arr z) (.arr Om0) (.arr w0) (.arr wa))
      (fun i => FlatWcdm.Ez (z.bat i) (Om0.bat i) (w0.bat i) (wa.bat i)) :=
  Elw.elementwise (elw_Ez (Elw.arr z) (Elw.arr Om0) (Elw.arr w0) (Elw.arr wa)) (by
    ext; simp only [Set.mem_union, Set.mem_singleton_iff, Set.mem_setOf_eq, List.mem_cons, List.not_mem_nil, or_false, or_assoc])

/-- C130: `hubble_time` -/
theorem C130_hubble_time (z Om0 w0 wa h : Arr ℝ) :
    Elementwise [z.shape, Om0.shape, w0.shape, wa.shape, h.shape]
      (NdElem.hubble_time (.arr z) (.arr Om0) (.arr w0) (.arr wa) (.arr h))
      (fun i => FlatWcdm.hubble_time (z.bat i) (Om0.bat i) (w0.bat i) (wa.bat i) (h.bat i)) :=
  Elw.elementwise (elw_hubble_time (Elw.arr z) (Elw.arr Om0) (Elw.arr w0) (Elw.arr wa) (Elw.arr h)) (by
    ext; simp only [Set.mem_union, Set.mem_singleton_iff, Set.mem_setOf_eq, List.mem_cons, List.not_mem_nil, or_false, or_assoc])

/-- C130: `rho_crit` -/
theorem C130_rho_crit (redshift Om0 w0 wa h : Arr ℝ) :
    Elementwise [redshift.shape, Om0.shape, w0.shape, wa.shape, h.shape]
      (NdElem.rho_crit (.arr redshift) (.arr Om0) (.arr w0) (.arr wa) (.arr h))
      (fun i => FlatWcdm.rho_crit (redshift.bat i) (Om0.bat i) (w0.bat i) (wa.bat i) (h.bat i)) :=
  Elw.elementwise (elw_rho_crit (Elw.arr redshift) (Elw.arr Om0) (Elw.arr w0) (Elw.arr wa) (Elw.arr h)) (by
    ext; simp only [Set.mem_union, Set.mem_singleton_iff, Set.mem_setOf_eq, List.mem_cons, List.not_mem_nil, or_false, or_assoc])

/-- C130: `Om_at_z` -/
theorem C130_Om_at_z (z Om0 w0 wa : Arr ℝ) :
    Elementwise [z.shape, Om0.shape, w0.shape, wa.shape]
      (NdElem.Om_at_z (.arr z) (.arr Om0) (.arr w0) (.arr wa))
      (fun i => FlatWcdm.Om_at_z (z.bat i) (Om0.bat i) (w0.bat i) (wa.bat i)) :=
  Elw.elementwise (elw_Om_at_z (Elw.arr z) (Elw.arr Om0) (Elw.arr w0) (Elw.arr wa)) (by
    ext; simp only [Set.mem_union, Set.mem_singleton_iff, Set.mem_setOf_eq, List.mem_cons, List.not_mem_nil, or_false, or_assoc])

/-- C130: `Umzr.mzr_model_t0` -/
theorem C130_umzr_mzr_model_t0 (logsm ytp x0 k slope_lo slope_hi : Arr ℝ) :
    Elementwise [logsm.shape, ytp.shape, x0.shape, k.shape, slope_lo.shape, slope_hi.shape]
      (NdElem.Umzr.mzr_model_t0 (.arr logsm) (.arr ytp) (.arr x0) (.arr k) (.arr slope_lo) (.arr slope_hi))
      (fun i => Dsps.Umzr.mzr_model_t0 (logsm.bat i) (ytp.bat i) (x0.bat i) (k.bat i) (slope_lo.bat i) (slope_hi.bat i)) :=
  Elw.elementwise (elw_umzr_mzr_model_t0 (Elw.arr logsm) (Elw.arr ytp) (Elw.arr x0) (Elw.arr k) (Elw.arr slope_lo) (Elw.arr slope_hi)) (by
    ext; simp only [Set.mem_union, Set.mem_singleton_iff, Set.mem_setOf_eq, List.mem_cons, List.not_mem_nil, or_false, or_assoc])

/-- C130: `Umzr.delta_logz_vs_t_lookback` -/
theorem C130_umzr_delta_logz_vs_t_lookback (t_lookback y_at_tc early k : Arr ℝ) :
    Elementwise [t_lookback.shape, y_at_tc.shape, early.shape, k.shape]
      (NdElem.Umzr.delta_logz_vs_t_lookback (.arr t_lookback) (.arr y_at_tc) (.arr early) (.arr k))
      (fun i => Dsps.Umzr.delta_logz_vs_t_lookback (t_lookback.bat i) (y_at_tc.bat i) (early.bat i) (k.bat i)) :=
  Elw.elementwise (elw_umzr_delta_logz_vs_t_lookback (Elw.arr t_lookback) (Elw.arr y_at_tc) (Elw.arr early) (Elw.arr k)) (by
    ext; simp only [Set.mem_union, Set.mem_singleton_iff, Set.mem_setOf_eq, List.mem_cons, List.not_mem_nil, or_false, or_assoc])

/-- C130: `Umzr.delta_logz_at_t_lookback` -/
theorem C130_umzr_delta_logz_at_t_lookback (lgmstar t_lookback c0y c1y c0e c1e : Arr ℝ) :
    Elementwise [lgmstar.shape, t_lookback.shape, c0y.shape, c1y.shape, c0e.shape, c1e.shape]
      (NdElem.Umzr.delta_logz_at_t_lookback (.arr lgmstar) (.arr t_lookback) (.arr c0y) (.arr c1y) (.arr c0e) (.arr c1e))
      (fun i => Dsps.Umzr.delta_logz_at_t_lookback (lgmstar.bat i) (t_lookback.bat i) (c0y.bat i) (c1y.bat i) (c0e.bat i) (c1e.bat i)) :=
  Elw.elementwise (elw_umzr_delta_logz_at_t_lookback (Elw.arr lgmstar) (Elw.arr t_lookback) (Elw.arr c0y) (Elw.arr c1y) (Elw.arr c0e) (Elw.arr c1e)) (by
    ext; simp only [Set.mem_union, Set.mem_singleton_iff, Set.mem_setOf_eq, List.mem_cons, List.not_mem_nil, or_false, or_assoc])

/-- C130: `Umzr.mzr_evolution_model` -/
theorem C130_umzr_mzr_evolution_model (logsm t c0y c1y c0e c1e : Arr ℝ) :
    Elementwise [logsm.shape, t.shape, c0y.shape, c1y.shape, c0e.shape, c1e.shape]
      (NdElem.Umzr.mzr_evolution_model (.arr logsm) (.arr t) (.arr c0y) (.arr c1y) (.arr c0e) (.arr c1e))
      (fun i => Dsps.Umzr.mzr_evolution_model (logsm.bat i) (t.bat i) (c0y.bat i) (c1y.bat i) (c0e.bat i) (c1e.bat i)) :=
  Elw.elementwise (elw_umzr_mzr_evolution_model (Elw.arr logsm) (Elw.arr t) (Elw.arr c0y) (Elw.arr c1y) (Elw.arr c0e) (Elw.arr c1e)) (by
    ext; simp only [Set.mem_union, Set.mem_singleton_iff, Set.mem_setOf_eq, List.mem_cons, List.not_mem_nil, or_false, or_assoc])

/-- C130: `Umzr.mzr_model` -/
theorem C130_umzr_mzr_model (logsm t ytp x0 k slope_lo slope_hi c0y c1y c0e c1e : Arr ℝ) :
    Elementwise [logsm.shape, t.shape, ytp.shape, x0.shape, k.shape, slope_lo.shape, slope_hi.shape, c0y.shape, c1y.shape, c0e.shape, c1e.shape]
      (NdElem.Umzr.mzr_model (.arr logsm) (.arr t) (.arr ytp) (.arr x0) (.arr k) (.arr slope_lo) (.arr slope_hi) (.arr c0y) (.arr c1y) (.arr c0e) (.arr c1e))
      (fun i => Dsps.Umzr.mzr_model (logsm.bat i) (t.bat i) ⟨ytp.bat i, x0.bat i, k.bat i, slope_lo.bat i, slope_hi.bat i, c0y.bat i, c1y.bat i, c0e.bat i, c1e.bat i⟩) :=
  Elw.elementwise (elw_umzr_mzr_model (Elw.arr logsm) (Elw.arr t) (Elw.arr ytp) (Elw.arr x0) (Elw.arr k) (Elw.arr slope_lo) (Elw.arr slope_hi) (Elw.arr c0y) (Elw.arr c1y) (Elw.arr c0e) (Elw.arr c1e)) (by
    ext; simp only [Set.mem_union, Set.mem_singleton_iff, Set.mem_setOf_eq, List.mem_cons, List.not_mem_nil, or_false, or_assoc])

/-- C130: `Umzr.get_mzr_t0_slope_hi_from_unbounded` -/
theorem C130_umzr_get_mzr_t0_slope_hi_from_unbounded (slope_lo u_slope_hi : Arr ℝ) :
    Elementwise [slope_lo.shape, u_slope_hi.shape]
      (NdElem.Umzr.get_mzr_t0_slope_hi_from_unbounded (.arr slope_lo) (.arr u_slope_hi))
      (fun i => Dsps.Umzr.get_mzr_t0_slope_hi_from_unbounded (slope_lo.bat i) (u_slope_hi.bat i)) :=
  Elw.elementwise (elw_umzr_get_mzr_t0_slope_hi_from_unbounded (Elw.arr slope_lo) (Elw.arr u_slope_hi)) (by
    ext; simp only [Set.mem_union, Set.mem_singleton_iff, Set.mem_setOf_eq, List.mem_cons, List.not_mem_nil, or_false, or_assoc])

/-- C130: `Umzr.get_u_mzr_t0_slope_hi_from_bounded` -/
theorem C130_umzr_get_u_mzr_t0_slope_hi_from_bounded (slope_lo slope_hi : Arr ℝ) :
    Elementwise [slope_lo.shape, slope_hi.shape]
      (NdElem.Umzr.get_u_mzr_t0_slope_hi_from_bounded (.arr slope_lo) (.arr slope_hi))
      (fun i => Dsps.Umzr.get_u_mzr_t0_slope_hi_from_bounded (slope_lo.bat i) (slope_hi.bat i)) :=
  Elw.elementwise (elw_umzr_get_u_mzr_t0_slope_hi_from_bounded (Elw.arr slope_lo) (Elw.arr slope_hi)) (by
    ext; simp only [Set.mem_union, Set.mem_singleton_iff, Set.mem_setOf_eq, List.mem_cons, List.not_mem_nil, or_false, or_assoc])

/-- C130: `get_lgyr_peak_from_u_lgyr_peak` -/
theorem C130_get_lgyr_peak_from_u_lgyr_peak (u_lgyr_peak : Arr ℝ) :
    Elementwise [u_lgyr_peak.shape]
      (NdElem.get_lgyr_peak_from_u_lgyr_peak (.arr u_lgyr_peak))
      (fun i => Diffburst.get_lgyr_peak_from_u_lgyr_peak (u_lgyr_peak.bat i)) :=
  Elw.elementwise (elw_get_lgyr_peak_from_u_lgyr_peak (Elw.arr u_lgyr_peak)) (by
    ext; simp only [Set.mem_union, Set.mem_singleton_iff, Set.mem_setOf_eq, List.mem_cons, List.not_mem_nil, or_false, or_assoc])

/-- C130: `get_lgfburst_from_u_lgfburst` -/
theorem C130_get_lgfburst_from_u_lgfburst (u_lgfburst : Arr ℝ) :
    Elementwise [u_lgfburst.shape]
      (NdElem.get_lgfburst_from_u_lgfburst (.arr u_lgfburst))
      (fun i => Diffburst.get_lgfburst_from_u_lgfburst (u_lgfburst.bat i)) :=
  Elw.elementwise (elw_get_lgfburst_from_u_lgfburst (Elw.arr u_lgfburst)) (by
    ext; simp only [Set.mem_union, Set.mem_singleton_iff, Set.mem_setOf_eq, List.mem_cons, List.not_mem_nil, or_false, or_assoc])

/-- C130: `get_u_lgfburst_from_lgfburst` -/
theorem C130_get_u_lgfburst_from_lgfburst (lgfburst : Arr ℝ) :
    Elementwise [lgfburst.shape]
      (NdElem.get_u_lgfburst_from_lgfburst (.arr lgfburst))
      (fun i => Diffburst.get_u_lgfburst_from_lgfburst (lgfburst.bat i)) :=
  Elw.elementwise (elw_get_u_lgfburst_from_lgfburst (Elw.arr lgfburst)) (by
    ext; simp only [Set.mem_union, Set.mem_singleton_iff, Set.mem_setOf_eq, List.mem_cons, List.not_mem_nil, or_false, or_assoc])

/-- C130: `get_lgyr_max_from_lgyr_peak` -/
theorem C130_get_lgyr_max_from_lgyr_peak (lgyr_peak u_lgyr_max : Arr ℝ) :
    Elementwise [lgyr_peak.shape, u_lgyr_max.shape]
      (NdElem.get_lgyr_max_from_lgyr_peak (.arr lgyr_peak) (.arr u_lgyr_max))
      (fun i => Diffburst.get_lgyr_max_from_lgyr_peak (lgyr_peak.bat i) (u_lgyr_max.bat i)) :=
  Elw.elementwise (elw_get_lgyr_max_from_lgyr_peak (Elw.arr lgyr_peak) (Elw.arr u_lgyr_max)) (by
    ext; simp only [Set.mem_union, Set.mem_singleton_iff, Set.mem_setOf_eq, List.mem_cons, List.not_mem_nil, or_false, or_assoc])

/-- C130: `get_u_lgyr_peak_from_lgyr_peak` -/
theorem C130_get_u_lgyr_peak_from_lgyr_peak (lgyr_peak : Arr ℝ) :
    Elementwise [lgyr_peak.shape]
      (NdElem.get_u_lgyr_peak_from_lgyr_peak (.arr lgyr_peak))
      (fun i => Diffburst.get_u_lgyr_peak_from_lgyr_peak (lgyr_peak.bat i)) :=
  Elw.elementwise (elw_get_u_lgyr_peak_from_lgyr_peak (Elw.arr lgyr_peak)) (by
    ext; simp only [Set.mem_union, Set.mem_singleton_iff, Set.mem_setOf_eq, List.mem_cons, List.not_mem_nil, or_false, or_assoc])

/-- C130: `get_u_lgyr_max_from_lgyr_peak` -/
theorem C130_get_u_lgyr_max_from_lgyr_peak (lgyr_peak lgyr_max : Arr ℝ) :
    Elementwise [lgyr_peak.shape, lgyr_max.shape]
      (NdElem.get_u_lgyr_max_from_lgyr_peak (.arr lgyr_peak) (.arr lgyr_max))
      (fun i => Diffburst.get_u_lgyr_max_from_lgyr_peak (lgyr_peak.bat i) (lgyr_max.bat i)) :=
  Elw.elementwise (elw_get_u_lgyr_max_from_lgyr_peak (Elw.arr lgyr_peak) (Elw.arr lgyr_max)) (by
    ext; simp only [Set.mem_union, Set.mem_singleton_iff, Set.mem_setOf_eq, List.mem_cons, List.not_mem_nil, or_false, or_assoc])


/-! ### Concrete calls -/

/-- a batch of two exposure parameters of shape `(2, 1)` against three wavelengths of shape `(3,)`: the shapes broadcast to `(2, 3)` -/
theorem C130_batch_shape (n m : ℕ) : Broadcasts {s | s ∈ [[n], [m, 1], []]} [m, n] := by
  intro k
  rcases k with _ | _ | k
  · simp
  · simp
  · simp

/-- shapes `(n,)` and `(m,)` with different lengths, neither of them one, do not broadcast to anything -/
theorem C130_clash {n m : ℕ} (h : n ≠ m) (hn : n ≠ 1) (hm : m ≠ 1) (S : List (List ℕ)) (h1 : [n] ∈ S) (h2 : [m] ∈ S) (out : List ℕ) :
    ¬ Broadcasts {s | s ∈ S} out := by
  intro hb
  have h0 := hb 0
  cases ho : out.reverse[0]? with
  | none => rw [ho] at h0; have := h0 _ h1; simp at this
  | some d =>
    rw [ho] at h0
    have a := h0.1 _ h1 n (by simp)
    have b := h0.1 _ h2 m (by simp)
    omega

/-- the broadcast shape is unique, so `Elementwise` determines the shape of the result -/
theorem C130_shape_unique (S : List (List ℕ)) (o o' : List ℕ) (h : Broadcasts {s | s ∈ S} o) (h' : Broadcasts {s | s ∈ S} o') : o = o' := h.unique h'

/-- the attenuation of `m` galaxies, `av` of shape `(m, 1)`, at `n` wavelengths: one row per galaxy -/
example (n m : ℕ) (wave av : Arr ℝ) (hw : wave.shape = [n]) (ha : av.shape = [m, 1]) :
    ∃ r, NdElem.calzetti00_att_curve (.arr wave) (.arr av) = .ok r ∧ r.shape = [m, n] ∧
      ∀ i j, i < m → j < n → r.dat [i, j] = Dust.calzetti00_att_curve (wave.dat [j]) (av.dat [i, 0]) := by
  have hb : Broadcasts {s | s ∈ [wave.shape, av.shape]} [m, n] := by
    rw [hw, ha]
    intro k
    rcases k with _ | _ | k <;> simp
  obtain ⟨r, h1, h2, h3⟩ := (C130_calzetti00_att_curve wave av).1 _ hb
  refine ⟨r, h1, h2, fun i j hi hj => ?_⟩
  rw [h3 _ (by simp [Pos, hi, hj])]
  simp only [Arr.bat, hw, ha]
  congr 2
  · simp [bcIdx]; omega
  · simp [bcIdx]; omega

/-- the metallicity of two galaxies with three parameter values raises -/
example (logsm t y0 x0 k slope_lo slope_hi c0y c1y tlook_c c0e c1e : Arr ℝ) (h1 : logsm.shape = [2]) (h2 : y0.shape = [3]) :
    Raises (NdElem.mzr_model (.arr logsm) (.arr t) (.arr y0) (.arr x0) (.arr k) (.arr slope_lo) (.arr slope_hi) (.arr c0y) (.arr c1y)
      (.arr tlook_c) (.arr c0e) (.arr c1e)) :=
  (C130_mzr_model logsm t y0 x0 k slope_lo slope_hi c0y c1y tlook_c c0e c1e).2
    (C130_clash (n := 2) (m := 3) (by norm_num) (by norm_num) (by norm_num) _ (by simp [h1]) (by simp [h2]))

end Dsps.Props
