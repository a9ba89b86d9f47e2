import Verif.Lemmas.NdElem

/-! The element-wise formulas of the package are element-wise: one lemma per function, in the order of the call graph. -/
namespace Dsps.Lemmas
open Nd Dsps

theorem elw_sigmoid {S0 S1 S2 S3 S4 : Set (List ℕ)} {g0 g1 g2 g3 g4 : List ℕ → ℝ} {x0 x1 x2 x3 x4 : E}
    (h0 : Elw S0 g0 x0) (h1 : Elw S1 g1 x1) (h2 : Elw S2 g2 x2) (h3 : Elw S3 g3 x3) (h4 : Elw S4 g4 x4) :
    Elw (S0 ∪ S1 ∪ S2 ∪ S3 ∪ S4) (fun i => Utils.sigmoid (g0 i) (g1 i) (g2 i) (g3 i) (g4 i)) (NdElem.sigmoid x0 x1 x2 x3 x4) := by
  apply Elw.congr (r := NdElem.sigmoid x0 x1 x2 x3 x4)
  case h =>
    unfold NdElem.sigmoid
    try dsimp only
    elwf
  case hS => ext t; simp only [Set.mem_union, Set.mem_empty_iff_false, or_false, false_or] <;> tauto
  case hg => intro i; simp only [Utils.sigmoid] <;> congr!
macro_rules | `(tactic| elw1) => `(tactic| with_reducible apply elw_sigmoid)

theorem elw_inverse_sigmoid {S0 S1 S2 S3 S4 : Set (List ℕ)} {g0 g1 g2 g3 g4 : List ℕ → ℝ} {x0 x1 x2 x3 x4 : E}
    (h0 : Elw S0 g0 x0) (h1 : Elw S1 g1 x1) (h2 : Elw S2 g2 x2) (h3 : Elw S3 g3 x3) (h4 : Elw S4 g4 x4) :
    Elw (S0 ∪ S1 ∪ S2 ∪ S3 ∪ S4) (fun i => Utils.inverse_sigmoid (g0 i) (g1 i) (g2 i) (g3 i) (g4 i)) (NdElem.inverse_sigmoid x0 x1 x2 x3 x4) := by
  apply Elw.congr (r := NdElem.inverse_sigmoid x0 x1 x2 x3 x4)
  case h =>
    unfold NdElem.inverse_sigmoid
    try dsimp only
    elwf
  case hS => ext t; simp only [Set.mem_union, Set.mem_empty_iff_false, or_false, false_or] <;> tauto
  case hg => intro i; simp only [Utils.inverse_sigmoid] <;> congr!
macro_rules | `(tactic| elw1) => `(tactic| with_reducible apply elw_inverse_sigmoid)

theorem elw_sig_slope {S0 S1 S2 S3 S4 S5 S6 : Set (List ℕ)} {g0 g1 g2 g3 g4 g5 g6 : List ℕ → ℝ} {x0 x1 x2 x3 x4 x5 x6 : E}
    (h0 : Elw S0 g0 x0) (h1 : Elw S1 g1 x1) (h2 : Elw S2 g2 x2) (h3 : Elw S3 g3 x3) (h4 : Elw S4 g4 x4) (h5 : Elw S5 g5 x5) (h6 : Elw S6 g6 x6) :
    Elw (S0 ∪ S1 ∪ S2 ∪ S3 ∪ S4 ∪ S5 ∪ S6) (fun i => Utils.sig_slope (g0 i) (g1 i) (g2 i) (g3 i) (g4 i) (g5 i) (g6 i)) (NdElem.sig_slope x0 x1 x2 x3 x4 x5 x6) := by
  apply Elw.congr (r := NdElem.sig_slope x0 x1 x2 x3 x4 x5 x6)
  case h =>
    unfold NdElem.sig_slope
    try dsimp only
    elwf
  case hS => ext t; simp only [Set.mem_union, Set.mem_empty_iff_false, or_false, false_or] <;> tauto
  case hg => intro i; simp only [Utils.sig_slope] <;> congr!
macro_rules | `(tactic| elw1) => `(tactic| with_reducible apply elw_sig_slope)

theorem elw_tw_cuml_kern {S0 S1 S2 : Set (List ℕ)} {g0 g1 g2 : List ℕ → ℝ} {x0 x1 x2 : E}
    (h0 : Elw S0 g0 x0) (h1 : Elw S1 g1 x1) (h2 : Elw S2 g2 x2) :
    Elw (S0 ∪ S1 ∪ S2) (fun i => Utils.tw_cuml_kern (g0 i) (g1 i) (g2 i)) (NdElem.tw_cuml_kern x0 x1 x2) := by
  apply Elw.congr (r := NdElem.tw_cuml_kern x0 x1 x2)
  case h =>
    unfold NdElem.tw_cuml_kern
    try dsimp only
    elwf
  case hS => ext t; simp only [Set.mem_union, Set.mem_empty_iff_false, or_false, false_or] <;> tauto
  case hg => intro i; simp only [Utils.tw_cuml_kern] <;> congr!
macro_rules | `(tactic| elw1) => `(tactic| with_reducible apply elw_tw_cuml_kern)

theorem elw_tw_sigmoid {S0 S1 S2 S3 S4 : Set (List ℕ)} {g0 g1 g2 g3 g4 : List ℕ → ℝ} {x0 x1 x2 x3 x4 : E}
    (h0 : Elw S0 g0 x0) (h1 : Elw S1 g1 x1) (h2 : Elw S2 g2 x2) (h3 : Elw S3 g3 x3) (h4 : Elw S4 g4 x4) :
    Elw (S0 ∪ S1 ∪ S2 ∪ S3 ∪ S4) (fun i => Utils.tw_sigmoid (g0 i) (g1 i) (g2 i) (g3 i) (g4 i)) (NdElem.tw_sigmoid x0 x1 x2 x3 x4) := by
  apply Elw.congr (r := NdElem.tw_sigmoid x0 x1 x2 x3 x4)
  case h =>
    unfold NdElem.tw_sigmoid
    try dsimp only
    elwf
  case hS => ext t; simp only [Set.mem_union, Set.mem_empty_iff_false, or_false, false_or] <;> tauto
  case hg => intro i; simp only [Utils.tw_sigmoid] <;> congr!
macro_rules | `(tactic| elw1) => `(tactic| with_reducible apply elw_tw_sigmoid)

theorem elw_triweighted_histogram_kernel {S0 S1 S2 S3 : Set (List ℕ)} {g0 g1 g2 g3 : List ℕ → ℝ} {x0 x1 x2 x3 : E}
    (h0 : Elw S0 g0 x0) (h1 : Elw S1 g1 x1) (h2 : Elw S2 g2 x2) (h3 : Elw S3 g3 x3) :
    Elw (S0 ∪ S1 ∪ S2 ∪ S3) (fun i => Utils.triweighted_histogram_kernel (g0 i) (g1 i) (g2 i) (g3 i)) (NdElem.triweighted_histogram_kernel x0 x1 x2 x3) := by
  apply Elw.congr (r := NdElem.triweighted_histogram_kernel x0 x1 x2 x3)
  case h =>
    unfold NdElem.triweighted_histogram_kernel
    try dsimp only
    elwf
  case hS => ext t; simp only [Set.mem_union, Set.mem_empty_iff_false, or_false, false_or] <;> tauto
  case hg => intro i; simp only [Utils.triweighted_histogram_kernel] <;> congr!
macro_rules | `(tactic| elw1) => `(tactic| with_reducible apply elw_triweighted_histogram_kernel)

theorem elw_triweight_gaussian {S0 S1 S2 : Set (List ℕ)} {g0 g1 g2 : List ℕ → ℝ} {x0 x1 x2 : E}
    (h0 : Elw S0 g0 x0) (h1 : Elw S1 g1 x1) (h2 : Elw S2 g2 x2) :
    Elw (S0 ∪ S1 ∪ S2) (fun i => Utils.triweight_gaussian (g0 i) (g1 i) (g2 i)) (NdElem.triweight_gaussian x0 x1 x2) := by
  apply Elw.congr (r := NdElem.triweight_gaussian x0 x1 x2)
  case h =>
    unfold NdElem.triweight_gaussian
    try dsimp only
    elwf
  case hS => ext t; simp only [Set.mem_union, Set.mem_empty_iff_false, or_false, false_or] <;> tauto
  case hg => intro i; simp only [Utils.triweight_gaussian] <;> congr!
macro_rules | `(tactic| elw1) => `(tactic| with_reducible apply elw_triweight_gaussian)

theorem elw_tw_sig_slope {S0 S1 S2 S3 S4 S5 S6 : Set (List ℕ)} {g0 g1 g2 g3 g4 g5 g6 : List ℕ → ℝ} {x0 x1 x2 x3 x4 x5 x6 : E}
    (h0 : Elw S0 g0 x0) (h1 : Elw S1 g1 x1) (h2 : Elw S2 g2 x2) (h3 : Elw S3 g3 x3) (h4 : Elw S4 g4 x4) (h5 : Elw S5 g5 x5) (h6 : Elw S6 g6 x6) :
    Elw (S0 ∪ S1 ∪ S2 ∪ S3 ∪ S4 ∪ S5 ∪ S6) (fun i => Utils.tw_sig_slope (g0 i) (g1 i) (g2 i) (g3 i) (g4 i) (g5 i) (g6 i)) (NdElem.tw_sig_slope x0 x1 x2 x3 x4 x5 x6) := by
  apply Elw.congr (r := NdElem.tw_sig_slope x0 x1 x2 x3 x4 x5 x6)
  case h =>
    unfold NdElem.tw_sig_slope
    try dsimp only
    elwf
  case hS => ext t; simp only [Set.mem_union, Set.mem_empty_iff_false, or_false, false_or] <;> tauto
  case hg => intro i; simp only [Utils.tw_sig_slope] <;> congr!
macro_rules | `(tactic| elw1) => `(tactic| with_reducible apply elw_tw_sig_slope)

theorem elw_powerlaw_pdf {S0 S1 S2 S3 : Set (List ℕ)} {g0 g1 g2 g3 : List ℕ → ℝ} {x0 x1 x2 x3 : E}
    (h0 : Elw S0 g0 x0) (h1 : Elw S1 g1 x1) (h2 : Elw S2 g2 x2) (h3 : Elw S3 g3 x3) :
    Elw (S0 ∪ S1 ∪ S2 ∪ S3) (fun i => Utils.powerlaw_pdf (g0 i) (g1 i) (g2 i) (g3 i)) (NdElem.powerlaw_pdf x0 x1 x2 x3) := by
  apply Elw.congr (r := NdElem.powerlaw_pdf x0 x1 x2 x3)
  case h =>
    unfold NdElem.powerlaw_pdf
    try dsimp only
    elwf
  case hS => ext t; simp only [Set.mem_union, Set.mem_empty_iff_false, or_false, false_or] <;> tauto
  case hg => intro i; simp only [Utils.powerlaw_pdf] <;> congr!
macro_rules | `(tactic| elw1) => `(tactic| with_reducible apply elw_powerlaw_pdf)

theorem elw_log_remnant_mass {S0 S1 S2 S3 S4 S5 : Set (List ℕ)} {g0 g1 g2 g3 g4 g5 : List ℕ → ℝ} {x0 x1 x2 x3 x4 x5 : E}
    (h0 : Elw S0 g0 x0) (h1 : Elw S1 g1 x1) (h2 : Elw S2 g2 x2) (h3 : Elw S3 g3 x3) (h4 : Elw S4 g4 x4) (h5 : Elw S5 g5 x5) :
    Elw (S0 ∪ S1 ∪ S2 ∪ S3 ∪ S4 ∪ S5) (fun i => RemnantMass.log_remnant_mass (g0 i) (g1 i) (g2 i) (g3 i) (g4 i) (g5 i)) (NdElem.log_remnant_mass x0 x1 x2 x3 x4 x5) := by
  apply Elw.congr (r := NdElem.log_remnant_mass x0 x1 x2 x3 x4 x5)
  case h =>
    unfold NdElem.log_remnant_mass
    try dsimp only
    elwf
  case hS => ext t; simp only [Set.mem_union, Set.mem_empty_iff_false, or_false, false_or] <;> tauto
  case hg => intro i; simp only [RemnantMass.log_remnant_mass, Jnp.exp10] <;> congr!
macro_rules | `(tactic| elw1) => `(tactic| with_reducible apply elw_log_remnant_mass)

theorem elw_returned_mass {S0 S1 S2 S3 S4 S5 S6 S7 S8 : Set (List ℕ)} {g0 g1 g2 g3 g4 g5 g6 g7 g8 : List ℕ → ℝ} {x0 x1 x2 x3 x4 x5 x6 x7 x8 : E}
    (h0 : Elw S0 g0 x0) (h1 : Elw S1 g1 x1) (h2 : Elw S2 g2 x2) (h3 : Elw S3 g3 x3) (h4 : Elw S4 g4 x4) (h5 : Elw S5 g5 x5) (h6 : Elw S6 g6 x6) (h7 : Elw S7 g7 x7) (h8 : Elw S8 g8 x8) :
    Elw (S0 ∪ S1 ∪ S2 ∪ S3 ∪ S4 ∪ S5 ∪ S6 ∪ S7 ∪ S8) (fun i => SurvivingMstar.returned_mass (g0 i) (g1 i) (g2 i) (g3 i) (g4 i) (g5 i) (g6 i) (g7 i) (g8 i)) (NdElem.returned_mass x0 x1 x2 x3 x4 x5 x6 x7 x8) := by
  apply Elw.congr (r := NdElem.returned_mass x0 x1 x2 x3 x4 x5 x6 x7 x8)
  case h =>
    unfold NdElem.returned_mass
    try dsimp only
    elwf
  case hS => ext t; simp only [Set.mem_union, Set.mem_empty_iff_false, or_false, false_or] <;> tauto
  case hg => intro i; simp only [SurvivingMstar.returned_mass, Jnp.exp10] <;> congr!
macro_rules | `(tactic| elw1) => `(tactic| with_reducible apply elw_returned_mass)

theorem elw_surviving_mstar {S0 S1 S2 S3 S4 S5 S6 S7 S8 : Set (List ℕ)} {g0 g1 g2 g3 g4 g5 g6 g7 g8 : List ℕ → ℝ} {x0 x1 x2 x3 x4 x5 x6 x7 x8 : E}
    (h0 : Elw S0 g0 x0) (h1 : Elw S1 g1 x1) (h2 : Elw S2 g2 x2) (h3 : Elw S3 g3 x3) (h4 : Elw S4 g4 x4) (h5 : Elw S5 g5 x5) (h6 : Elw S6 g6 x6) (h7 : Elw S7 g7 x7) (h8 : Elw S8 g8 x8) :
    Elw (S0 ∪ S1 ∪ S2 ∪ S3 ∪ S4 ∪ S5 ∪ S6 ∪ S7 ∪ S8) (fun i => SurvivingMstar.surviving_mstar (g0 i) ⟨g1 i, g2 i, g3 i, g4 i, g5 i, g6 i, g7 i, g8 i⟩) (NdElem.surviving_mstar x0 x1 x2 x3 x4 x5 x6 x7 x8) := by
  apply Elw.congr (r := NdElem.surviving_mstar x0 x1 x2 x3 x4 x5 x6 x7 x8)
  case h =>
    unfold NdElem.surviving_mstar
    try dsimp only
    elwf
  case hS => ext t; simp only [Set.mem_union, Set.mem_empty_iff_false, or_false, false_or] <;> tauto
  case hg => intro i; simp only [SurvivingMstar.surviving_mstar] <;> congr!
macro_rules | `(tactic| elw1) => `(tactic| with_reducible apply elw_surviving_mstar)

theorem elw_mzr_model_t0 {S0 S1 S2 S3 S4 S5 : Set (List ℕ)} {g0 g1 g2 g3 g4 g5 : List ℕ → ℝ} {x0 x1 x2 x3 x4 x5 : E}
    (h0 : Elw S0 g0 x0) (h1 : Elw S1 g1 x1) (h2 : Elw S2 g2 x2) (h3 : Elw S3 g3 x3) (h4 : Elw S4 g4 x4) (h5 : Elw S5 g5 x5) :
    Elw (S0 ∪ S1 ∪ S2 ∪ S3 ∪ S4 ∪ S5) (fun i => Mzr.mzr_model_t0 (g0 i) (g1 i) (g2 i) (g3 i) (g4 i) (g5 i)) (NdElem.mzr_model_t0 x0 x1 x2 x3 x4 x5) := by
  apply Elw.congr (r := NdElem.mzr_model_t0 x0 x1 x2 x3 x4 x5)
  case h =>
    unfold NdElem.mzr_model_t0
    try dsimp only
    elwf
  case hS => ext t; simp only [Set.mem_union, Set.mem_empty_iff_false, or_false, false_or] <;> tauto
  case hg => intro i; simp only [Mzr.mzr_model_t0] <;> congr!
macro_rules | `(tactic| elw1) => `(tactic| with_reducible apply elw_mzr_model_t0)

theorem elw_maiolino08_metallicity_evolution {S0 S1 S2 : Set (List ℕ)} {g0 g1 g2 : List ℕ → ℝ} {x0 x1 x2 : E}
    (h0 : Elw S0 g0 x0) (h1 : Elw S1 g1 x1) (h2 : Elw S2 g2 x2) :
    Elw (S0 ∪ S1 ∪ S2) (fun i => Mzr.maiolino08_metallicity_evolution (g0 i) (g1 i) (g2 i)) (NdElem.maiolino08_metallicity_evolution x0 x1 x2) := by
  apply Elw.congr (r := NdElem.maiolino08_metallicity_evolution x0 x1 x2)
  case h =>
    unfold NdElem.maiolino08_metallicity_evolution
    try dsimp only
    elwf
  case hS => ext t; simp only [Set.mem_union, Set.mem_empty_iff_false, or_false, false_or] <;> tauto
  case hg => intro i; simp only [Mzr.maiolino08_metallicity_evolution] <;> congr!
macro_rules | `(tactic| elw1) => `(tactic| with_reducible apply elw_maiolino08_metallicity_evolution)

theorem elw_delta_logz_vs_t_lookback {S0 S1 S2 S3 S4 : Set (List ℕ)} {g0 g1 g2 g3 g4 : List ℕ → ℝ} {x0 x1 x2 x3 x4 : E}
    (h0 : Elw S0 g0 x0) (h1 : Elw S1 g1 x1) (h2 : Elw S2 g2 x2) (h3 : Elw S3 g3 x3) (h4 : Elw S4 g4 x4) :
    Elw (S0 ∪ S1 ∪ S2 ∪ S3 ∪ S4) (fun i => Mzr.delta_logz_vs_t_lookback (g0 i) (g1 i) (g2 i) (g3 i) (g4 i)) (NdElem.delta_logz_vs_t_lookback x0 x1 x2 x3 x4) := by
  apply Elw.congr (r := NdElem.delta_logz_vs_t_lookback x0 x1 x2 x3 x4)
  case h =>
    unfold NdElem.delta_logz_vs_t_lookback
    try dsimp only
    elwf
  case hS => ext t; simp only [Set.mem_union, Set.mem_empty_iff_false, or_false, false_or] <;> tauto
  case hg => intro i; simp only [Mzr.delta_logz_vs_t_lookback] <;> congr!
macro_rules | `(tactic| elw1) => `(tactic| with_reducible apply elw_delta_logz_vs_t_lookback)

theorem elw_delta_logz_at_t_lookback {S0 S1 S2 S3 S4 S5 S6 : Set (List ℕ)} {g0 g1 g2 g3 g4 g5 g6 : List ℕ → ℝ} {x0 x1 x2 x3 x4 x5 x6 : E}
    (h0 : Elw S0 g0 x0) (h1 : Elw S1 g1 x1) (h2 : Elw S2 g2 x2) (h3 : Elw S3 g3 x3) (h4 : Elw S4 g4 x4) (h5 : Elw S5 g5 x5) (h6 : Elw S6 g6 x6) :
    Elw (S0 ∪ S1 ∪ S2 ∪ S3 ∪ S4 ∪ S5 ∪ S6) (fun i => Mzr.delta_logz_at_t_lookback (g0 i) (g1 i) (g2 i) (g3 i) (g4 i) (g5 i) (g6 i)) (NdElem.delta_logz_at_t_lookback x0 x1 x2 x3 x4 x5 x6) := by
  apply Elw.congr (r := NdElem.delta_logz_at_t_lookback x0 x1 x2 x3 x4 x5 x6)
  case h =>
    unfold NdElem.delta_logz_at_t_lookback
    try dsimp only
    elwf
  case hS => ext t; simp only [Set.mem_union, Set.mem_empty_iff_false, or_false, false_or] <;> tauto
  case hg => intro i; simp only [Mzr.delta_logz_at_t_lookback, Mzr.get_p_at_lgmstar] <;> congr!
macro_rules | `(tactic| elw1) => `(tactic| with_reducible apply elw_delta_logz_at_t_lookback)

theorem elw_mzr_evolution_model {S0 S1 S2 S3 S4 S5 S6 : Set (List ℕ)} {g0 g1 g2 g3 g4 g5 g6 : List ℕ → ℝ} {x0 x1 x2 x3 x4 x5 x6 : E}
    (h0 : Elw S0 g0 x0) (h1 : Elw S1 g1 x1) (h2 : Elw S2 g2 x2) (h3 : Elw S3 g3 x3) (h4 : Elw S4 g4 x4) (h5 : Elw S5 g5 x5) (h6 : Elw S6 g6 x6) :
    Elw (S0 ∪ S1 ∪ S2 ∪ S3 ∪ S4 ∪ S5 ∪ S6) (fun i => Mzr.mzr_evolution_model (g0 i) (g1 i) (g2 i) (g3 i) (g4 i) (g5 i) (g6 i)) (NdElem.mzr_evolution_model x0 x1 x2 x3 x4 x5 x6) := by
  apply Elw.congr (r := NdElem.mzr_evolution_model x0 x1 x2 x3 x4 x5 x6)
  case h =>
    unfold NdElem.mzr_evolution_model
    try dsimp only
    elwf
  case hS => ext t; simp only [Set.mem_union, Set.mem_empty_iff_false, or_false, false_or] <;> tauto
  case hg => intro i; simp only [Mzr.mzr_evolution_model] <;> congr!
macro_rules | `(tactic| elw1) => `(tactic| with_reducible apply elw_mzr_evolution_model)

theorem elw_mzr_model {S0 S1 S2 S3 S4 S5 S6 S7 S8 S9 S10 S11 : Set (List ℕ)} {g0 g1 g2 g3 g4 g5 g6 g7 g8 g9 g10 g11 : List ℕ → ℝ} {x0 x1 x2 x3 x4 x5 x6 x7 x8 x9 x10 x11 : E}
    (h0 : Elw S0 g0 x0) (h1 : Elw S1 g1 x1) (h2 : Elw S2 g2 x2) (h3 : Elw S3 g3 x3) (h4 : Elw S4 g4 x4) (h5 : Elw S5 g5 x5) (h6 : Elw S6 g6 x6) (h7 : Elw S7 g7 x7) (h8 : Elw S8 g8 x8) (h9 : Elw S9 g9 x9) (h10 : Elw S10 g10 x10) (h11 : Elw S11 g11 x11) :
    Elw (S0 ∪ S1 ∪ S2 ∪ S3 ∪ S4 ∪ S5 ∪ S6 ∪ S7 ∪ S8 ∪ S9 ∪ S10 ∪ S11) (fun i => Mzr.mzr_model (g0 i) (g1 i) (g2 i) (g3 i) (g4 i) (g5 i) (g6 i) (g7 i) (g8 i) (g9 i) (g10 i) (g11 i)) (NdElem.mzr_model x0 x1 x2 x3 x4 x5 x6 x7 x8 x9 x10 x11) := by
  apply Elw.congr (r := NdElem.mzr_model x0 x1 x2 x3 x4 x5 x6 x7 x8 x9 x10 x11)
  case h =>
    unfold NdElem.mzr_model
    try dsimp only
    elwf
  case hS => ext t; simp only [Set.mem_union, Set.mem_empty_iff_false, or_false, false_or] <;> tauto
  case hg => intro i; simp only [Mzr.mzr_model] <;> congr!
macro_rules | `(tactic| elw1) => `(tactic| with_reducible apply elw_mzr_model)

theorem elw_att_curve_from_k_lambda {S0 S1 : Set (List ℕ)} {g0 g1 : List ℕ → ℝ} {x0 x1 : E}
    (h0 : Elw S0 g0 x0) (h1 : Elw S1 g1 x1) :
    Elw (S0 ∪ S1) (fun i => Dust.att_curve_from_k_lambda (g0 i) (g1 i)) (NdElem.att_curve_from_k_lambda x0 x1) := by
  apply Elw.congr (r := NdElem.att_curve_from_k_lambda x0 x1)
  case h =>
    unfold NdElem.att_curve_from_k_lambda
    try dsimp only
    elwf
  case hS => ext t; simp only [Set.mem_union, Set.mem_empty_iff_false, or_false, false_or] <;> tauto
  case hg => intro i; simp only [Dust.att_curve_from_k_lambda] <;> congr!
macro_rules | `(tactic| elw1) => `(tactic| with_reducible apply elw_att_curve_from_k_lambda)

theorem elw_frac_transmission_from_k_lambda {S0 S1 S2 : Set (List ℕ)} {g0 g1 g2 : List ℕ → ℝ} {x0 x1 x2 : E}
    (h0 : Elw S0 g0 x0) (h1 : Elw S1 g1 x1) (h2 : Elw S2 g2 x2) :
    Elw (S0 ∪ S1 ∪ S2) (fun i => Dust.frac_transmission_from_k_lambda (g0 i) (g1 i) (g2 i)) (NdElem.frac_transmission_from_k_lambda x0 x1 x2) := by
  apply Elw.congr (r := NdElem.frac_transmission_from_k_lambda x0 x1 x2)
  case h =>
    unfold NdElem.frac_transmission_from_k_lambda
    try dsimp only
    elwf
  case hS => ext t; simp only [Set.mem_union, Set.mem_empty_iff_false, or_false, false_or] <;> tauto
  case hg => intro i; simp only [Dust.frac_transmission_from_k_lambda] <;> congr!
macro_rules | `(tactic| elw1) => `(tactic| with_reducible apply elw_frac_transmission_from_k_lambda)

theorem elw_calzetti00_k_lambda {S0 : Set (List ℕ)} {g0 : List ℕ → ℝ} {x0 : E}
    (h0 : Elw S0 g0 x0) :
    Elw (S0) (fun i => Dust.calzetti00_k_lambda (g0 i)) (NdElem.calzetti00_k_lambda x0) := by
  apply Elw.congr (r := NdElem.calzetti00_k_lambda x0)
  case h =>
    unfold NdElem.calzetti00_k_lambda
    try dsimp only
    elwf
  case hS => ext t; simp only [Set.mem_union, Set.mem_empty_iff_false, or_false, false_or] <;> tauto
  case hg => intro i; simp only [Dust.calzetti00_k_lambda] <;> congr!
macro_rules | `(tactic| elw1) => `(tactic| with_reducible apply elw_calzetti00_k_lambda)

theorem elw_leitherer02_k_lambda {S0 : Set (List ℕ)} {g0 : List ℕ → ℝ} {x0 : E}
    (h0 : Elw S0 g0 x0) :
    Elw (S0) (fun i => Dust.leitherer02_k_lambda (g0 i)) (NdElem.leitherer02_k_lambda x0) := by
  apply Elw.congr (r := NdElem.leitherer02_k_lambda x0)
  case h =>
    unfold NdElem.leitherer02_k_lambda
    try dsimp only
    elwf
  case hS => ext t; simp only [Set.mem_union, Set.mem_empty_iff_false, or_false, false_or] <;> tauto
  case hg => intro i; simp only [Dust.leitherer02_k_lambda] <;> congr!
macro_rules | `(tactic| elw1) => `(tactic| with_reducible apply elw_leitherer02_k_lambda)

theorem elw_l02_below_c00_above {S0 S1 : Set (List ℕ)} {g0 g1 : List ℕ → ℝ} {x0 x1 : E}
    (h0 : Elw S0 g0 x0) (h1 : Elw S1 g1 x1) :
    Elw (S0 ∪ S1) (fun i => Dust.l02_below_c00_above (g0 i) (g1 i)) (NdElem.l02_below_c00_above x0 x1) := by
  apply Elw.congr (r := NdElem.l02_below_c00_above x0 x1)
  case h =>
    unfold NdElem.l02_below_c00_above
    try dsimp only
    elwf
  case hS => ext t; simp only [Set.mem_union, Set.mem_empty_iff_false, or_false, false_or] <;> tauto
  case hg => intro i; simp only [Dust.l02_below_c00_above] <;> congr!
macro_rules | `(tactic| elw1) => `(tactic| with_reducible apply elw_l02_below_c00_above)

theorem elw_power_law_vband_norm {S0 S1 S2 : Set (List ℕ)} {g0 g1 g2 : List ℕ → ℝ} {x0 x1 x2 : E}
    (h0 : Elw S0 g0 x0) (h1 : Elw S1 g1 x1) (h2 : Elw S2 g2 x2) :
    Elw (S0 ∪ S1 ∪ S2) (fun i => Dust.power_law_vband_norm (g0 i) (g1 i) (g2 i)) (NdElem.power_law_vband_norm x0 x1 x2) := by
  apply Elw.congr (r := NdElem.power_law_vband_norm x0 x1 x2)
  case h =>
    unfold NdElem.power_law_vband_norm
    try dsimp only
    elwf
  case hS => ext t; simp only [Set.mem_union, Set.mem_empty_iff_false, or_false, false_or] <;> tauto
  case hg => intro i; simp only [Dust.power_law_vband_norm] <;> congr!
macro_rules | `(tactic| elw1) => `(tactic| with_reducible apply elw_power_law_vband_norm)

theorem elw_drude_bump {S0 S1 S2 S3 : Set (List ℕ)} {g0 g1 g2 g3 : List ℕ → ℝ} {x0 x1 x2 x3 : E}
    (h0 : Elw S0 g0 x0) (h1 : Elw S1 g1 x1) (h2 : Elw S2 g2 x2) (h3 : Elw S3 g3 x3) :
    Elw (S0 ∪ S1 ∪ S2 ∪ S3) (fun i => Dust.drude_bump (g0 i) (g1 i) (g2 i) (g3 i)) (NdElem.drude_bump x0 x1 x2 x3) := by
  apply Elw.congr (r := NdElem.drude_bump x0 x1 x2 x3)
  case h =>
    unfold NdElem.drude_bump
    try dsimp only
    elwf
  case hS => ext t; simp only [Set.mem_union, Set.mem_empty_iff_false, or_false, false_or] <;> tauto
  case hg => intro i; simp only [Dust.drude_bump] <;> congr!
macro_rules | `(tactic| elw1) => `(tactic| with_reducible apply elw_drude_bump)

theorem elw_noll09_k_lambda {S0 S1 S2 S3 S4 : Set (List ℕ)} {g0 g1 g2 g3 g4 : List ℕ → ℝ} {x0 x1 x2 x3 x4 : E}
    (h0 : Elw S0 g0 x0) (h1 : Elw S1 g1 x1) (h2 : Elw S2 g2 x2) (h3 : Elw S3 g3 x3) (h4 : Elw S4 g4 x4) :
    Elw (S0 ∪ S1 ∪ S2 ∪ S3 ∪ S4) (fun i => Dust.noll09_k_lambda (g0 i) (g1 i) (g2 i) (g3 i) (g4 i)) (NdElem.noll09_k_lambda x0 x1 x2 x3 x4) := by
  apply Elw.congr (r := NdElem.noll09_k_lambda x0 x1 x2 x3 x4)
  case h =>
    unfold NdElem.noll09_k_lambda
    try dsimp only
    elwf
  case hS => ext t; simp only [Set.mem_union, Set.mem_empty_iff_false, or_false, false_or] <;> tauto
  case hg => intro i; simp only [Dust.noll09_k_lambda] <;> congr!
macro_rules | `(tactic| elw1) => `(tactic| with_reducible apply elw_noll09_k_lambda)

theorem elw_noll09_k_att_curve {S0 S1 S2 S3 S4 S5 : Set (List ℕ)} {g0 g1 g2 g3 g4 g5 : List ℕ → ℝ} {x0 x1 x2 x3 x4 x5 : E}
    (h0 : Elw S0 g0 x0) (h1 : Elw S1 g1 x1) (h2 : Elw S2 g2 x2) (h3 : Elw S3 g3 x3) (h4 : Elw S4 g4 x4) (h5 : Elw S5 g5 x5) :
    Elw (S0 ∪ S1 ∪ S2 ∪ S3 ∪ S4 ∪ S5) (fun i => Dust.noll09_k_att_curve (g0 i) (g1 i) (g2 i) (g3 i) (g4 i) (g5 i)) (NdElem.noll09_k_att_curve x0 x1 x2 x3 x4 x5) := by
  apply Elw.congr (r := NdElem.noll09_k_att_curve x0 x1 x2 x3 x4 x5)
  case h =>
    unfold NdElem.noll09_k_att_curve
    try dsimp only
    elwf
  case hS => ext t; simp only [Set.mem_union, Set.mem_empty_iff_false, or_false, false_or] <;> tauto
  case hg => intro i; simp only [Dust.noll09_k_att_curve] <;> congr!
macro_rules | `(tactic| elw1) => `(tactic| with_reducible apply elw_noll09_k_att_curve)

theorem elw_sbl18_k_lambda {S0 S1 S2 S3 S4 : Set (List ℕ)} {g0 g1 g2 g3 g4 : List ℕ → ℝ} {x0 x1 x2 x3 x4 : E}
    (h0 : Elw S0 g0 x0) (h1 : Elw S1 g1 x1) (h2 : Elw S2 g2 x2) (h3 : Elw S3 g3 x3) (h4 : Elw S4 g4 x4) :
    Elw (S0 ∪ S1 ∪ S2 ∪ S3 ∪ S4) (fun i => Dust.sbl18_k_lambda (g0 i) (g1 i) (g2 i) (g3 i) (g4 i)) (NdElem.sbl18_k_lambda x0 x1 x2 x3 x4) := by
  apply Elw.congr (r := NdElem.sbl18_k_lambda x0 x1 x2 x3 x4)
  case h =>
    unfold NdElem.sbl18_k_lambda
    try dsimp only
    elwf
  case hS => ext t; simp only [Set.mem_union, Set.mem_empty_iff_false, or_false, false_or] <;> tauto
  case hg => intro i; simp only [Dust.sbl18_k_lambda] <;> congr!
macro_rules | `(tactic| elw1) => `(tactic| with_reducible apply elw_sbl18_k_lambda)

theorem elw_sbl18_k_att_curve {S0 S1 S2 S3 S4 S5 : Set (List ℕ)} {g0 g1 g2 g3 g4 g5 : List ℕ → ℝ} {x0 x1 x2 x3 x4 x5 : E}
    (h0 : Elw S0 g0 x0) (h1 : Elw S1 g1 x1) (h2 : Elw S2 g2 x2) (h3 : Elw S3 g3 x3) (h4 : Elw S4 g4 x4) (h5 : Elw S5 g5 x5) :
    Elw (S0 ∪ S1 ∪ S2 ∪ S3 ∪ S4 ∪ S5) (fun i => Dust.sbl18_k_att_curve (g0 i) (g1 i) (g2 i) (g3 i) (g4 i) (g5 i)) (NdElem.sbl18_k_att_curve x0 x1 x2 x3 x4 x5) := by
  apply Elw.congr (r := NdElem.sbl18_k_att_curve x0 x1 x2 x3 x4 x5)
  case h =>
    unfold NdElem.sbl18_k_att_curve
    try dsimp only
    elwf
  case hS => ext t; simp only [Set.mem_union, Set.mem_empty_iff_false, or_false, false_or] <;> tauto
  case hg => intro i; simp only [Dust.sbl18_k_att_curve] <;> congr!
macro_rules | `(tactic| elw1) => `(tactic| with_reducible apply elw_sbl18_k_att_curve)

theorem elw_calzetti00_att_curve {S0 S1 : Set (List ℕ)} {g0 g1 : List ℕ → ℝ} {x0 x1 : E}
    (h0 : Elw S0 g0 x0) (h1 : Elw S1 g1 x1) :
    Elw (S0 ∪ S1) (fun i => Dust.calzetti00_att_curve (g0 i) (g1 i)) (NdElem.calzetti00_att_curve x0 x1) := by
  apply Elw.congr (r := NdElem.calzetti00_att_curve x0 x1)
  case h =>
    unfold NdElem.calzetti00_att_curve
    try dsimp only
    elwf
  case hS => ext t; simp only [Set.mem_union, Set.mem_empty_iff_false, or_false, false_or] <;> tauto
  case hg => intro i; simp only [Dust.calzetti00_att_curve] <;> congr!
macro_rules | `(tactic| elw1) => `(tactic| with_reducible apply elw_calzetti00_att_curve)

theorem elw_leitherer02_att_curve {S0 S1 : Set (List ℕ)} {g0 g1 : List ℕ → ℝ} {x0 x1 : E}
    (h0 : Elw S0 g0 x0) (h1 : Elw S1 g1 x1) :
    Elw (S0 ∪ S1) (fun i => Dust.leitherer02_att_curve (g0 i) (g1 i)) (NdElem.leitherer02_att_curve x0 x1) := by
  apply Elw.congr (r := NdElem.leitherer02_att_curve x0 x1)
  case h =>
    unfold NdElem.leitherer02_att_curve
    try dsimp only
    elwf
  case hS => ext t; simp only [Set.mem_union, Set.mem_empty_iff_false, or_false, false_or] <;> tauto
  case hg => intro i; simp only [Dust.leitherer02_att_curve] <;> congr!
macro_rules | `(tactic| elw1) => `(tactic| with_reducible apply elw_leitherer02_att_curve)

theorem elw_triweight_k_lambda {S0 S1 S2 S3 S4 S5 S6 : Set (List ℕ)} {g0 g1 g2 g3 g4 g5 g6 : List ℕ → ℝ} {x0 x1 x2 x3 x4 x5 x6 : E}
    (h0 : Elw S0 g0 x0) (h1 : Elw S1 g1 x1) (h2 : Elw S2 g2 x2) (h3 : Elw S3 g3 x3) (h4 : Elw S4 g4 x4) (h5 : Elw S5 g5 x5) (h6 : Elw S6 g6 x6) :
    Elw (S0 ∪ S1 ∪ S2 ∪ S3 ∪ S4 ∪ S5 ∪ S6) (fun i => Dust.triweight_k_lambda (g0 i) (g1 i) (g2 i) (g3 i) (g4 i) (g5 i) (g6 i)) (NdElem.triweight_k_lambda x0 x1 x2 x3 x4 x5 x6) := by
  apply Elw.congr (r := NdElem.triweight_k_lambda x0 x1 x2 x3 x4 x5 x6)
  case h =>
    unfold NdElem.triweight_k_lambda
    try dsimp only
    elwf
  case hS => ext t; simp only [Set.mem_union, Set.mem_empty_iff_false, or_false, false_or] <;> tauto
  case hg => intro i; simp only [Dust.triweight_k_lambda, Jnp.exp10] <;> congr!
macro_rules | `(tactic| elw1) => `(tactic| with_reducible apply elw_triweight_k_lambda)

theorem elw_get_eb_from_delta {S0 : Set (List ℕ)} {g0 : List ℕ → ℝ} {x0 : E}
    (h0 : Elw S0 g0 x0) :
    Elw (S0) (fun i => Dust.get_eb_from_delta (g0 i)) (NdElem.get_eb_from_delta x0) := by
  apply Elw.congr (r := NdElem.get_eb_from_delta x0)
  case h =>
    unfold NdElem.get_eb_from_delta
    try dsimp only
    elwf
  case hS => ext t; simp only [Set.mem_union, Set.mem_empty_iff_false, or_false, false_or] <;> tauto
  case hg => intro i; simp only [Dust.get_eb_from_delta] <;> congr!
macro_rules | `(tactic| elw1) => `(tactic| with_reducible apply elw_get_eb_from_delta)

theorem elw_freq_density_denom {S0 S1 : Set (List ℕ)} {g0 g1 : List ℕ → ℝ} {x0 x1 : E}
    (h0 : Elw S0 g0 x0) (h1 : Elw S1 g1 x1) :
    Elw (S0 ∪ S1) (fun i => Blackbody.freq_density_denom (g0 i) (g1 i)) (NdElem.freq_density_denom x0 x1) := by
  apply Elw.congr (r := NdElem.freq_density_denom x0 x1)
  case h =>
    unfold NdElem.freq_density_denom
    try dsimp only
    elwf
  case hS => ext t; simp only [Set.mem_union, Set.mem_empty_iff_false, or_false, false_or] <;> tauto
  case hg => intro i; simp only [Blackbody.freq_density_denom] <;> congr!
macro_rules | `(tactic| elw1) => `(tactic| with_reducible apply elw_freq_density_denom)

theorem elw_blackbody_freq_density {S0 S1 : Set (List ℕ)} {g0 g1 : List ℕ → ℝ} {x0 x1 : E}
    (h0 : Elw S0 g0 x0) (h1 : Elw S1 g1 x1) :
    Elw (S0 ∪ S1) (fun i => Blackbody.blackbody_freq_density (g0 i) (g1 i)) (NdElem.blackbody_freq_density x0 x1) := by
  apply Elw.congr (r := NdElem.blackbody_freq_density x0 x1)
  case h =>
    unfold NdElem.blackbody_freq_density
    try dsimp only
    elwf
  case hS => ext t; simp only [Set.mem_union, Set.mem_empty_iff_false, or_false, false_or] <;> tauto
  case hg => intro i; simp only [Blackbody.blackbody_freq_density, Blackbody.blackbody_freq_density_si, Blackbody.jax_bb_freq_density_exparg] <;> congr!
macro_rules | `(tactic| elw1) => `(tactic| with_reducible apply elw_blackbody_freq_density)

theorem elw_wave_density_denom {S0 S1 : Set (List ℕ)} {g0 g1 : List ℕ → ℝ} {x0 x1 : E}
    (h0 : Elw S0 g0 x0) (h1 : Elw S1 g1 x1) :
    Elw (S0 ∪ S1) (fun i => Blackbody.wave_density_denom (g0 i) (g1 i)) (NdElem.wave_density_denom x0 x1) := by
  apply Elw.congr (r := NdElem.wave_density_denom x0 x1)
  case h =>
    unfold NdElem.wave_density_denom
    try dsimp only
    elwf
  case hS => ext t; simp only [Set.mem_union, Set.mem_empty_iff_false, or_false, false_or] <;> tauto
  case hg => intro i; simp only [Blackbody.wave_density_denom] <;> congr!
macro_rules | `(tactic| elw1) => `(tactic| with_reducible apply elw_wave_density_denom)

theorem elw_blackbody_wave_density {S0 S1 : Set (List ℕ)} {g0 g1 : List ℕ → ℝ} {x0 x1 : E}
    (h0 : Elw S0 g0 x0) (h1 : Elw S1 g1 x1) :
    Elw (S0 ∪ S1) (fun i => Blackbody.blackbody_wave_density (g0 i) (g1 i)) (NdElem.blackbody_wave_density x0 x1) := by
  apply Elw.congr (r := NdElem.blackbody_wave_density x0 x1)
  case h =>
    unfold NdElem.blackbody_wave_density
    try dsimp only
    elwf
  case hS => ext t; simp only [Set.mem_union, Set.mem_empty_iff_false, or_false, false_or] <;> tauto
  case hg => intro i; simp only [Blackbody.blackbody_wave_density, Blackbody.blackbody_wave_density_si] <;> congr!
macro_rules | `(tactic| elw1) => `(tactic| with_reducible apply elw_blackbody_wave_density)

theorem elw_rho_de_z {S0 S1 S2 : Set (List ℕ)} {g0 g1 g2 : List ℕ → ℝ} {x0 x1 x2 : E}
    (h0 : Elw S0 g0 x0) (h1 : Elw S1 g1 x1) (h2 : Elw S2 g2 x2) :
    Elw (S0 ∪ S1 ∪ S2) (fun i => FlatWcdm.rho_de_z (g0 i) (g1 i) (g2 i)) (NdElem.rho_de_z x0 x1 x2) := by
  apply Elw.congr (r := NdElem.rho_de_z x0 x1 x2)
  case h =>
    unfold NdElem.rho_de_z
    try dsimp only
    elwf
  case hS => ext t; simp only [Set.mem_union, Set.mem_empty_iff_false, or_false, false_or] <;> tauto
  case hg => intro i; simp only [FlatWcdm.rho_de_z] <;> congr!
macro_rules | `(tactic| elw1) => `(tactic| with_reducible apply elw_rho_de_z)

theorem elw_Ez {S0 S1 S2 S3 : Set (List ℕ)} {g0 g1 g2 g3 : List ℕ → ℝ} {x0 x1 x2 x3 : E}
    (h0 : Elw S0 g0 x0) (h1 : Elw S1 g1 x1) (h2 : Elw S2 g2 x2) (h3 : Elw S3 g3 x3) :
    Elw (S0 ∪ S1 ∪ S2 ∪ S3) (fun i => FlatWcdm.Ez (g0 i) (g1 i) (g2 i) (g3 i)) (NdElem.Ez x0 x1 x2 x3) := by
  apply Elw.congr (r := NdElem.Ez x0 x1 x2 x3)
  case h =>
    unfold NdElem.Ez
    try dsimp only
    elwf
  case hS => ext t; simp only [Set.mem_union, Set.mem_empty_iff_false, or_false, false_or] <;> tauto
  case hg => intro i; simp only [FlatWcdm.Ez] <;> congr!
macro_rules | `(tactic| elw1) => `(tactic| with_reducible apply elw_Ez)

theorem elw_hubble_time {S0 S1 S2 S3 S4 : Set (List ℕ)} {g0 g1 g2 g3 g4 : List ℕ → ℝ} {x0 x1 x2 x3 x4 : E}
    (h0 : Elw S0 g0 x0) (h1 : Elw S1 g1 x1) (h2 : Elw S2 g2 x2) (h3 : Elw S3 g3 x3) (h4 : Elw S4 g4 x4) :
    Elw (S0 ∪ S1 ∪ S2 ∪ S3 ∪ S4) (fun i => FlatWcdm.hubble_time (g0 i) (g1 i) (g2 i) (g3 i) (g4 i)) (NdElem.hubble_time x0 x1 x2 x3 x4) := by
  apply Elw.congr (r := NdElem.hubble_time x0 x1 x2 x3 x4)
  case h =>
    unfold NdElem.hubble_time
    try dsimp only
    elwf
  case hS => ext t; simp only [Set.mem_union, Set.mem_empty_iff_false, or_false, false_or] <;> tauto
  case hg => intro i; simp only [FlatWcdm.hubble_time] <;> congr!
macro_rules | `(tactic| elw1) => `(tactic| with_reducible apply elw_hubble_time)

theorem elw_rho_crit {S0 S1 S2 S3 S4 : Set (List ℕ)} {g0 g1 g2 g3 g4 : List ℕ → ℝ} {x0 x1 x2 x3 x4 : E}
    (h0 : Elw S0 g0 x0) (h1 : Elw S1 g1 x1) (h2 : Elw S2 g2 x2) (h3 : Elw S3 g3 x3) (h4 : Elw S4 g4 x4) :
    Elw (S0 ∪ S1 ∪ S2 ∪ S3 ∪ S4) (fun i => FlatWcdm.rho_crit (g0 i) (g1 i) (g2 i) (g3 i) (g4 i)) (NdElem.rho_crit x0 x1 x2 x3 x4) := by
  apply Elw.congr (r := NdElem.rho_crit x0 x1 x2 x3 x4)
  case h =>
    unfold NdElem.rho_crit
    try dsimp only
    elwf
  case hS => ext t; simp only [Set.mem_union, Set.mem_empty_iff_false, or_false, false_or] <;> tauto
  case hg => intro i; simp only [FlatWcdm.rho_crit] <;> congr!
macro_rules | `(tactic| elw1) => `(tactic| with_reducible apply elw_rho_crit)

theorem elw_Om_at_z {S0 S1 S2 S3 : Set (List ℕ)} {g0 g1 g2 g3 : List ℕ → ℝ} {x0 x1 x2 x3 : E}
    (h0 : Elw S0 g0 x0) (h1 : Elw S1 g1 x1) (h2 : Elw S2 g2 x2) (h3 : Elw S3 g3 x3) :
    Elw (S0 ∪ S1 ∪ S2 ∪ S3) (fun i => FlatWcdm.Om_at_z (g0 i) (g1 i) (g2 i) (g3 i)) (NdElem.Om_at_z x0 x1 x2 x3) := by
  apply Elw.congr (r := NdElem.Om_at_z x0 x1 x2 x3)
  case h =>
    unfold NdElem.Om_at_z
    try dsimp only
    elwf
  case hS => ext t; simp only [Set.mem_union, Set.mem_empty_iff_false, or_false, false_or] <;> tauto
  case hg => intro i; simp only [FlatWcdm.Om_at_z] <;> congr!
macro_rules | `(tactic| elw1) => `(tactic| with_reducible apply elw_Om_at_z)

theorem elw_umzr_mzr_model_t0 {S0 S1 S2 S3 S4 S5 : Set (List ℕ)} {g0 g1 g2 g3 g4 g5 : List ℕ → ℝ} {x0 x1 x2 x3 x4 x5 : E}
    (h0 : Elw S0 g0 x0) (h1 : Elw S1 g1 x1) (h2 : Elw S2 g2 x2) (h3 : Elw S3 g3 x3) (h4 : Elw S4 g4 x4) (h5 : Elw S5 g5 x5) :
    Elw (S0 ∪ S1 ∪ S2 ∪ S3 ∪ S4 ∪ S5) (fun i => Dsps.Umzr.mzr_model_t0 (g0 i) (g1 i) (g2 i) (g3 i) (g4 i) (g5 i)) (NdElem.Umzr.mzr_model_t0 x0 x1 x2 x3 x4 x5) := by
  apply Elw.congr (r := NdElem.Umzr.mzr_model_t0 x0 x1 x2 x3 x4 x5)
  case h =>
    unfold NdElem.Umzr.mzr_model_t0
    try dsimp only
    elwf
  case hS => ext t; simp only [Set.mem_union, Set.mem_empty_iff_false, or_false, false_or] <;> tauto
  case hg => intro i; simp only [Dsps.Umzr.mzr_model_t0] <;> congr!
macro_rules | `(tactic| elw1) => `(tactic| with_reducible apply elw_umzr_mzr_model_t0)

theorem elw_umzr_delta_logz_vs_t_lookback {S0 S1 S2 S3 : Set (List ℕ)} {g0 g1 g2 g3 : List ℕ → ℝ} {x0 x1 x2 x3 : E}
    (h0 : Elw S0 g0 x0) (h1 : Elw S1 g1 x1) (h2 : Elw S2 g2 x2) (h3 : Elw S3 g3 x3) :
    Elw (S0 ∪ S1 ∪ S2 ∪ S3) (fun i => Dsps.Umzr.delta_logz_vs_t_lookback (g0 i) (g1 i) (g2 i) (g3 i)) (NdElem.Umzr.delta_logz_vs_t_lookback x0 x1 x2 x3) := by
  apply Elw.congr (r := NdElem.Umzr.delta_logz_vs_t_lookback x0 x1 x2 x3)
  case h =>
    unfold NdElem.Umzr.delta_logz_vs_t_lookback
    try dsimp only
    elwf
  case hS => ext t; simp only [Set.mem_union, Set.mem_empty_iff_false, or_false, false_or] <;> tauto
  case hg => intro i; simp only [Dsps.Umzr.delta_logz_vs_t_lookback] <;> congr!
macro_rules | `(tactic| elw1) => `(tactic| with_reducible apply elw_umzr_delta_logz_vs_t_lookback)

theorem elw_umzr_delta_logz_at_t_lookback {S0 S1 S2 S3 S4 S5 : Set (List ℕ)} {g0 g1 g2 g3 g4 g5 : List ℕ → ℝ} {x0 x1 x2 x3 x4 x5 : E}
    (h0 : Elw S0 g0 x0) (h1 : Elw S1 g1 x1) (h2 : Elw S2 g2 x2) (h3 : Elw S3 g3 x3) (h4 : Elw S4 g4 x4) (h5 : Elw S5 g5 x5) :
    Elw (S0 ∪ S1 ∪ S2 ∪ S3 ∪ S4 ∪ S5) (fun i => Dsps.Umzr.delta_logz_at_t_lookback (g0 i) (g1 i) (g2 i) (g3 i) (g4 i) (g5 i)) (NdElem.Umzr.delta_logz_at_t_lookback x0 x1 x2 x3 x4 x5) := by
  apply Elw.congr (r := NdElem.Umzr.delta_logz_at_t_lookback x0 x1 x2 x3 x4 x5)
  case h =>
    unfold NdElem.Umzr.delta_logz_at_t_lookback
    try dsimp only
    elwf
  case hS => ext t; simp only [Set.mem_union, Set.mem_empty_iff_false, or_false, false_or] <;> tauto
  case hg => intro i; simp only [Dsps.Umzr.delta_logz_at_t_lookback, Dsps.Umzr.get_p_at_lgmstar] <;> congr!
macro_rules | `(tactic| elw1) => `(tactic| with_reducible apply elw_umzr_delta_logz_at_t_lookback)

theorem elw_umzr_mzr_evolution_model {S0 S1 S2 S3 S4 S5 : Set (List ℕ)} {g0 g1 g2 g3 g4 g5 : List ℕ → ℝ} {x0 x1 x2 x3 x4 x5 : E}
    (h0 : Elw S0 g0 x0) (h1 : Elw S1 g1 x1) (h2 : Elw S2 g2 x2) (h3 : Elw S3 g3 x3) (h4 : Elw S4 g4 x4) (h5 : Elw S5 g5 x5) :
    Elw (S0 ∪ S1 ∪ S2 ∪ S3 ∪ S4 ∪ S5) (fun i => Dsps.Umzr.mzr_evolution_model (g0 i) (g1 i) (g2 i) (g3 i) (g4 i) (g5 i)) (NdElem.Umzr.mzr_evolution_model x0 x1 x2 x3 x4 x5) := by
  apply Elw.congr (r := NdElem.Umzr.mzr_evolution_model x0 x1 x2 x3 x4 x5)
  case h =>
    unfold NdElem.Umzr.mzr_evolution_model
    try dsimp only
    elwf
  case hS => ext t; simp only [Set.mem_union, Set.mem_empty_iff_false, or_false, false_or] <;> tauto
  case hg => intro i; simp only [Dsps.Umzr.mzr_evolution_model] <;> congr!
macro_rules | `(tactic| elw1) => `(tactic| with_reducible apply elw_umzr_mzr_evolution_model)

theorem elw_umzr_mzr_model {S0 S1 S2 S3 S4 S5 S6 S7 S8 S9 S10 : Set (List ℕ)} {g0 g1 g2 g3 g4 g5 g6 g7 g8 g9 g10 : List ℕ → ℝ} {x0 x1 x2 x3 x4 x5 x6 x7 x8 x9 x10 : E}
    (h0 : Elw S0 g0 x0) (h1 : Elw S1 g1 x1) (h2 : Elw S2 g2 x2) (h3 : Elw S3 g3 x3) (h4 : Elw S4 g4 x4) (h5 : Elw S5 g5 x5) (h6 : Elw S6 g6 x6) (h7 : Elw S7 g7 x7) (h8 : Elw S8 g8 x8) (h9 : Elw S9 g9 x9) (h10 : Elw S10 g10 x10) :
    Elw (S0 ∪ S1 ∪ S2 ∪ S3 ∪ S4 ∪ S5 ∪ S6 ∪ S7 ∪ S8 ∪ S9 ∪ S10) (fun i => Dsps.Umzr.mzr_model (g0 i) (g1 i) ⟨g2 i, g3 i, g4 i, g5 i, g6 i, g7 i, g8 i, g9 i, g10 i⟩) (NdElem.Umzr.mzr_model x0 x1 x2 x3 x4 x5 x6 x7 x8 x9 x10) := by
  apply Elw.congr (r := NdElem.Umzr.mzr_model x0 x1 x2 x3 x4 x5 x6 x7 x8 x9 x10)
  case h =>
    unfold NdElem.Umzr.mzr_model
    try dsimp only
    elwf
  case hS => ext t; simp only [Set.mem_union, Set.mem_empty_iff_false, or_false, false_or] <;> tauto
  case hg => intro i; simp only [Dsps.Umzr.mzr_model] <;> congr!
macro_rules | `(tactic| elw1) => `(tactic| with_reducible apply elw_umzr_mzr_model)

theorem elw_umzr_get_mzr_t0_slope_hi_from_unbounded {S0 S1 : Set (List ℕ)} {g0 g1 : List ℕ → ℝ} {x0 x1 : E}
    (h0 : Elw S0 g0 x0) (h1 : Elw S1 g1 x1) :
    Elw (S0 ∪ S1) (fun i => Dsps.Umzr.get_mzr_t0_slope_hi_from_unbounded (g0 i) (g1 i)) (NdElem.Umzr.get_mzr_t0_slope_hi_from_unbounded x0 x1) := by
  apply Elw.congr (r := NdElem.Umzr.get_mzr_t0_slope_hi_from_unbounded x0 x1)
  case h =>
    unfold NdElem.Umzr.get_mzr_t0_slope_hi_from_unbounded
    try dsimp only
    elwf
  case hS => ext t; simp only [Set.mem_union, Set.mem_empty_iff_false, or_false, false_or] <;> tauto
  case hg => intro i; simp only [Dsps.Umzr.get_mzr_t0_slope_hi_from_unbounded] <;> congr!
macro_rules | `(tactic| elw1) => `(tactic| with_reducible apply elw_umzr_get_mzr_t0_slope_hi_from_unbounded)

theorem elw_umzr_get_u_mzr_t0_slope_hi_from_bounded {S0 S1 : Set (List ℕ)} {g0 g1 : List ℕ → ℝ} {x0 x1 : E}
    (h0 : Elw S0 g0 x0) (h1 : Elw S1 g1 x1) :
    Elw (S0 ∪ S1) (fun i => Dsps.Umzr.get_u_mzr_t0_slope_hi_from_bounded (g0 i) (g1 i)) (NdElem.Umzr.get_u_mzr_t0_slope_hi_from_bounded x0 x1) := by
  apply Elw.congr (r := NdElem.Umzr.get_u_mzr_t0_slope_hi_from_bounded x0 x1)
  case h =>
    unfold NdElem.Umzr.get_u_mzr_t0_slope_hi_from_bounded
    try dsimp only
    elwf
  case hS => ext t; simp only [Set.mem_union, Set.mem_empty_iff_false, or_false, false_or] <;> tauto
  case hg => intro i; simp only [Dsps.Umzr.get_u_mzr_t0_slope_hi_from_bounded] <;> congr!
macro_rules | `(tactic| elw1) => `(tactic| with_reducible apply elw_umzr_get_u_mzr_t0_slope_hi_from_bounded)

theorem elw_get_lgyr_peak_from_u_lgyr_peak {S0 : Set (List ℕ)} {g0 : List ℕ → ℝ} {x0 : E}
    (h0 : Elw S0 g0 x0) :
    Elw (S0) (fun i => Diffburst.get_lgyr_peak_from_u_lgyr_peak (g0 i)) (NdElem.get_lgyr_peak_from_u_lgyr_peak x0) := by
  apply Elw.congr (r := NdElem.get_lgyr_peak_from_u_lgyr_peak x0)
  case h =>
    unfold NdElem.get_lgyr_peak_from_u_lgyr_peak
    try dsimp only
    elwf
  case hS => ext t; simp only [Set.mem_union, Set.mem_empty_iff_false, or_false, false_or] <;> tauto
  case hg => intro i; simp only [Diffburst.get_lgyr_peak_from_u_lgyr_peak] <;> congr!
macro_rules | `(tactic| elw1) => `(tactic| with_reducible apply elw_get_lgyr_peak_from_u_lgyr_peak)

theorem elw_get_lgfburst_from_u_lgfburst {S0 : Set (List ℕ)} {g0 : List ℕ → ℝ} {x0 : E}
    (h0 : Elw S0 g0 x0) :
    Elw (S0) (fun i => Diffburst.get_lgfburst_from_u_lgfburst (g0 i)) (NdElem.get_lgfburst_from_u_lgfburst x0) := by
  apply Elw.congr (r := NdElem.get_lgfburst_from_u_lgfburst x0)
  case h =>
    unfold NdElem.get_lgfburst_from_u_lgfburst
    try dsimp only
    elwf
  case hS => ext t; simp only [Set.mem_union, Set.mem_empty_iff_false, or_false, false_or] <;> tauto
  case hg => intro i; simp only [Diffburst.get_lgfburst_from_u_lgfburst] <;> congr!
macro_rules | `(tactic| elw1) => `(tactic| with_reducible apply elw_get_lgfburst_from_u_lgfburst)

theorem elw_get_u_lgfburst_from_lgfburst {S0 : Set (List ℕ)} {g0 : List ℕ → ℝ} {x0 : E}
    (h0 : Elw S0 g0 x0) :
    Elw (S0) (fun i => Diffburst.get_u_lgfburst_from_lgfburst (g0 i)) (NdElem.get_u_lgfburst_from_lgfburst x0) := by
  apply Elw.congr (r := NdElem.get_u_lgfburst_from_lgfburst x0)
  case h =>
    unfold NdElem.get_u_lgfburst_from_lgfburst
    try dsimp only
    elwf
  case hS => ext t; simp only [Set.mem_union, Set.mem_empty_iff_false, or_false, false_or] <;> tauto
  case hg => intro i; simp only [Diffburst.get_u_lgfburst_from_lgfburst] <;> congr!
macro_rules | `(tactic| elw1) => `(tactic| with_reducible apply elw_get_u_lgfburst_from_lgfburst)

theorem elw_get_lgyr_max_from_lgyr_peak {S0 S1 : Set (List ℕ)} {g0 g1 : List ℕ → ℝ} {x0 x1 : E}
    (h0 : Elw S0 g0 x0) (h1 : Elw S1 g1 x1) :
    Elw (S0 ∪ S1) (fun i => Diffburst.get_lgyr_max_from_lgyr_peak (g0 i) (g1 i)) (NdElem.get_lgyr_max_from_lgyr_peak x0 x1) := by
  apply Elw.congr (r := NdElem.get_lgyr_max_from_lgyr_peak x0 x1)
  case h =>
    unfold NdElem.get_lgyr_max_from_lgyr_peak
    try dsimp only
    elwf
  case hS => ext t; simp only [Set.mem_union, Set.mem_empty_iff_false, or_false, false_or] <;> tauto
  case hg => intro i; simp only [Diffburst.get_lgyr_max_from_lgyr_peak] <;> congr!
macro_rules | `(tactic| elw1) => `(tactic| with_reducible apply elw_get_lgyr_max_from_lgyr_peak)

theorem elw_get_u_lgyr_peak_from_lgyr_peak {S0 : Set (List ℕ)} {g0 : List ℕ → ℝ} {x0 : E}
    (h0 : Elw S0 g0 x0) :
    Elw (S0) (fun i => Diffburst.get_u_lgyr_peak_from_lgyr_peak (g0 i)) (NdElem.get_u_lgyr_peak_from_lgyr_peak x0) := by
  apply Elw.congr (r := NdElem.get_u_lgyr_peak_from_lgyr_peak x0)
  case h =>
    unfold NdElem.get_u_lgyr_peak_from_lgyr_peak
    try dsimp only
    elwf
  case hS => ext t; simp only [Set.mem_union, Set.mem_empty_iff_false, or_false, false_or] <;> tauto
  case hg => intro i; simp only [Diffburst.get_u_lgyr_peak_from_lgyr_peak] <;> congr!
macro_rules | `(tactic| elw1) => `(tactic| with_reducible apply elw_get_u_lgyr_peak_from_lgyr_peak)

theorem elw_get_u_lgyr_max_from_lgyr_peak {S0 S1 : Set (List ℕ)} {g0 g1 : List ℕ → ℝ} {x0 x1 : E}
    (h0 : Elw S0 g0 x0) (h1 : Elw S1 g1 x1) :
    Elw (S0 ∪ S1) (fun i => Diffburst.get_u_lgyr_max_from_lgyr_peak (g0 i) (g1 i)) (NdElem.get_u_lgyr_max_from_lgyr_peak x0 x1) := by
  apply Elw.congr (r := NdElem.get_u_lgyr_max_from_lgyr_peak x0 x1)
  case h =>
    unfold NdElem.get_u_lgyr_max_from_lgyr_peak
    try dsimp only
    elwf
  case hS => ext t; simp only [Set.mem_union, Set.mem_empty_iff_false, or_false, false_or] <;> tauto
  case hg => intro i; simp only [Diffburst.get_u_lgyr_max_from_lgyr_peak] <;> congr!
macro_rules | `(tactic| elw1) => `(tactic| with_reducible apply elw_get_u_lgyr_max_from_lgyr_peak)

end Dsps.Lemmas
