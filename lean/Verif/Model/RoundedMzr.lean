import Verif.Model.RoundedDust
import Verif.Model.Umzr
import Verif.Model.Mzr
import Verif.Model.Imf

/-! The sigmoid-based relations in machine arithmetic (`Verif/Fl.lean`), operation by operation: `_sigmoid`, `_inverse_sigmoid` and `_sig_slope`
of `/repo/dsps/utils.py`, the mass-metallicity relations of `/repo/dsps/metallicity/mzr.py` and `umzr.py`, and the mass returned, surviving and
locked in remnants of `/repo/dsps/imf`.  `A` is the arithmetic of JAX's dtype, `P` that of Python's and numpy's own floats, `v` the accuracy of
the library functions. Arguments are machine numbers. -/
namespace Dsps.Rounded
open Fl

variable (P A : Arith) (v : ℝ)

/-- `nn.sigmoid(x)`, that is `lax.logistic`: absolute error `v`.  (XLA expands it to `1/(1+exp(-x))` or to `0.5+0.5*tanh(0.5*x)`; the second form
has no small relative error for large negative `x`.) -/
noncomputable def logistic (x : ℝ) : Set ℝ := {s | |s - Jnp.sigmoid x| ≤ v}

/-- `nn.sigmoid(x)` as XLA's CPU backend expands `lax.logistic`: `1 / (1 + exp(-x))` -/
noncomputable def logistic_xla (x : ℝ) : Set ℝ := {s | ∃ e ∈ exp v (-x), ∃ d ∈ A.add 1 e, s ∈ A.div 1 d}

/-- utils.py:149-152 `_sigmoid`; `S` is the implementation of `nn.sigmoid` -/
noncomputable def sigmoid (S : ℝ → Set ℝ) (x x0 k ylo yhi : ℝ) : Set ℝ :=
  {out | ∃ height_diff ∈ A.sub yhi ylo, ∃ d ∈ A.sub x x0, ∃ t ∈ A.mul k d, ∃ s ∈ S t, ∃ p ∈ A.mul height_diff s, out ∈ A.add ylo p}

/-- utils.py:155-158 `_inverse_sigmoid` -/
noncomputable def inverse_sigmoid (y x0 k ylo yhi : ℝ) : Set ℝ :=
  {out | ∃ a ∈ A.sub yhi ylo, ∃ b ∈ A.sub y ylo, ∃ q ∈ A.div a b, ∃ lnarg ∈ A.sub q 1, ∃ l ∈ log v lnarg, ∃ m ∈ A.div l k, out ∈ A.sub x0 m}

/-- utils.py:161-164 `_sig_slope` -/
noncomputable def sig_slope (x xtp ytp x0 slope_k lo hi : ℝ) : Set ℝ :=
  {out | ∃ slope ∈ sigmoid A (logistic v) x x0 slope_k lo hi, ∃ d ∈ A.sub x xtp, ∃ p ∈ A.mul slope d, out ∈ A.add ytp p}

/-! ### mzr.py and umzr.py -/

/-- mzr.py:47, umzr.py:19: `np.log10(0.012)`, computed by numpy and converted when it meets a JAX array -/
noncomputable def LGMET_SOLAR : Set ℝ := {r | ∃ x ∈ P.rnd 0.012, ∃ l ∈ log10 v x, r ∈ A.rnd l}

/-- mzr.py:50-64 `mzr_model_t0` -/
noncomputable def mzr_model_t0 (logsm y0 x0 k slope_lo slope_hi : ℝ) : Set ℝ :=
  {out | ∃ m ∈ sig_slope A v logsm x0 y0 x0 k slope_lo slope_hi, ∃ z ∈ LGMET_SOLAR P A v, out ∈ A.add m z}

/-- umzr.py:83-96 `mzr_model_t0`: the transition point is the literal `MZR_T0_XTP = 10.5`, a machine number -/
noncomputable def umzr_model_t0 (logsm ytp x0 k slope_lo slope_hi : ℝ) : Set ℝ :=
  {out | ∃ m ∈ sig_slope A v logsm Umzr.MZR_T0_XTP ytp x0 k slope_lo slope_hi, ∃ z ∈ LGMET_SOLAR P A v, out ∈ A.add m z}

/-- mzr.py:67-71 `maiolino08_metallicity_evolution` -/
noncomputable def maiolino08_metallicity_evolution (logsm logm0 k0 : ℝ) : Set ℝ :=
  {out | ∃ x ∈ A.sub logsm logm0, ∃ xsq ∈ A.mul x x, ∃ c ∈ lit P A 0.0864, ∃ p ∈ A.mul c xsq, ∃ s ∈ A.sub (-12.0) p, out ∈ A.add s k0}

/-- mzr.py:90, :92, umzr.py:115, :116: `c0 + c1 * lgmstar` -/
noncomputable def affine (lgmstar c0 c1 : ℝ) : Set ℝ := {out | ∃ p ∈ A.mul c1 lgmstar, out ∈ A.add c0 p}

/-- mzr.py:132-133, umzr.py:150-151: the lookback time, clipped at zero -/
noncomputable def t_lookback (cosmic_time : ℝ) : Set ℝ :=
  {out | ∃ t ∈ A.sub Mzr.MZR_EVOL_T0 cosmic_time, out = if t < 0 then 0 else t}

/-- mzr.py:74-80, :98-143 `mzr_evolution_model` with `_delta_logz_at_t_lookback` and `_delta_logz_vs_t_lookback`; `tlook_c +
jnp.zeros_like(lgmstar)` is an addition -/
noncomputable def mzr_evolution_model (logsm cosmic_time c0_y c1_y tlook_c c0_s c1_s : ℝ) : Set ℝ :=
  {out | ∃ tl ∈ t_lookback A cosmic_time, ∃ y ∈ affine A logsm c0_y c1_y, ∃ tc ∈ A.add tlook_c 0, ∃ es ∈ affine A logsm c0_s c1_s,
    ∃ k ∈ lit P A Mzr.MZR_EVOL_K, ∃ ls ∈ A.div y tc, ∃ dz ∈ sig_slope A v tl tc y tc k ls es, out = if dz > 0 then 0 else dz}

/-- mzr.py:146-173 `mzr_model` -/
noncomputable def mzr_model (logsm t y0 x0 k slope_lo slope_hi c0_y c1_y tlook_c c0_s c1_s : ℝ) : Set ℝ :=
  {out | ∃ z0 ∈ mzr_model_t0 P A v logsm y0 x0 k slope_lo slope_hi, ∃ dz ∈ mzr_evolution_model P A v logsm t c0_y c1_y tlook_c c0_s c1_s,
    out ∈ A.add z0 dz}

/-- umzr.py:99-104, :120-161 `mzr_evolution_model`: `MZR_DT_XTP` and `TLOOK_C` are two literals of the same value; each conversion gives the same
number or, in an arithmetic with a choice, may differ -/
noncomputable def umzr_evolution_model (logsm cosmic_time c0_y c1_y c0_s c1_s : ℝ) : Set ℝ :=
  {out | ∃ tl ∈ t_lookback A cosmic_time, ∃ y ∈ affine A logsm c0_y c1_y, ∃ es ∈ affine A logsm c0_s c1_s, ∃ xtp ∈ lit P A Umzr.MZR_DT_XTP,
    ∃ tc ∈ lit P A Umzr.TLOOK_C, ∃ k ∈ lit P A Umzr.MZR_EVOL_K, ∃ ls ∈ A.div y tc, ∃ dz ∈ sig_slope A v tl xtp y tc k ls es,
    out = if dz > 0 then 0 else dz}

/-- umzr.py:164-189 `mzr_model` -/
noncomputable def umzr_model (logsm t : ℝ) (p : Umzr.MZRParams) : Set ℝ :=
  {out | ∃ z0 ∈ umzr_model_t0 P A v logsm p.mzr_t0_ytp p.mzr_t0_x0 p.mzr_t0_k p.mzr_t0_slope_lo p.mzr_t0_slope_hi,
    ∃ dz ∈ umzr_evolution_model P A v logsm t p.c0_y_at_tlook_c p.c1_y_at_tlook_c p.c0_early_time_slope p.c1_early_time_slope,
    out ∈ A.add z0 dz}

/-- umzr.py:192-196 `_get_square_bounded_param`; the bounds are entries of a JAX array, `BOUNDING_K` a literal -/
noncomputable def get_square_bounded_param (S : ℝ → Set ℝ) (u_param : ℝ) (bound : ℝ × ℝ) : Set ℝ :=
  {out | ∃ lo ∈ lit P A bound.1, ∃ hi ∈ lit P A bound.2, ∃ s ∈ A.add lo hi, ∃ mid ∈ A.mul 0.5 s, ∃ k ∈ lit P A Umzr.BOUNDING_K,
    out ∈ sigmoid A S u_param mid k lo hi}

/-- umzr.py:199-203 `_get_square_unbounded_param` -/
noncomputable def get_square_unbounded_param (param : ℝ) (bound : ℝ × ℝ) : Set ℝ :=
  {out | ∃ lo ∈ lit P A bound.1, ∃ hi ∈ lit P A bound.2, ∃ s ∈ A.add lo hi, ∃ mid ∈ A.mul 0.5 s, ∃ k ∈ lit P A Umzr.BOUNDING_K,
    out ∈ inverse_sigmoid A v param mid k lo hi}

/-- umzr.py:206-212 `_get_mzr_t0_slope_hi_from_unbounded` -/
noncomputable def get_mzr_t0_slope_hi_from_unbounded (S : ℝ → Set ℝ) (mzr_t0_slope_lo u_mzr_t0_slope_hi : ℝ) : Set ℝ :=
  {out | ∃ k ∈ lit P A Umzr.BOUNDING_K, out ∈ sigmoid A S u_mzr_t0_slope_hi 0.0 k 0.0 mzr_t0_slope_lo}

/-- umzr.py:224, 228-244 `get_bounded_mzr_params` -/
noncomputable def get_bounded_mzr_params (S : ℝ → Set ℝ) (u_params : Umzr.MZRUParams) : Set Umzr.MZRParams :=
  {out | ∃ a : Fin 9 → ℝ, (∀ i, a i ∈ get_square_bounded_param P A S (u_params.toArray i) (Umzr.MZR_PBDICT i)) ∧
    ∃ hi ∈ get_mzr_t0_slope_hi_from_unbounded P A S (a 3) u_params.u_mzr_t0_slope_hi,
    out = { Umzr.MZRParams.ofArray a with mzr_t0_slope_hi := hi }}

/-- umzr.py:215-220 `_get_u_mzr_t0_slope_hi_from_bounded` -/
noncomputable def get_u_mzr_t0_slope_hi_from_bounded (mzr_t0_slope_lo mzr_t0_slope_hi : ℝ) : Set ℝ :=
  {out | ∃ k ∈ lit P A Umzr.BOUNDING_K, out ∈ inverse_sigmoid A v mzr_t0_slope_hi 0.0 k 0.0 mzr_t0_slope_lo}

/-- umzr.py:225, 247-264 `get_unbounded_mzr_params`; the value computed for the fifth parameter with its own bounds (not meaningful when the
logarithm has a negative argument) is discarded -/
noncomputable def get_unbounded_mzr_params (params : Umzr.MZRParams) : Set Umzr.MZRUParams :=
  {out | ∃ a : Fin 9 → ℝ, (∀ i, a i ∈ get_square_unbounded_param P A v (params.toArray i) (Umzr.MZR_PBDICT i)) ∧
    ∃ hi ∈ get_u_mzr_t0_slope_hi_from_bounded P A v params.mzr_t0_slope_lo params.mzr_t0_slope_hi,
    out = { Umzr.MZRUParams.ofArray a with u_mzr_t0_slope_hi := hi }}

/-! ### surviving_mstar.py and remnant_mass.py -/

/-- surviving_mstar.py:66-71: `_returned_mass` after `k1` and `k2` -/
noncomputable def returned_mass_of (lg_age_yr a b k1 d e f k2 h : ℝ) : Set ℝ :=
  {out | ∃ z ∈ sig_slope A v lg_age_yr b a b k1 d e, out ∈ sigmoid A (logistic v) lg_age_yr f k2 h z}

/-- surviving_mstar.py:62-71 `_returned_mass`: `10**lgk1` and `10**lgk2` are JAX operations -/
noncomputable def returned_mass (lg_age_yr : ℝ) (p : SurvivingMstar.Params) : Set ℝ :=
  {out | ∃ k1 ∈ exp10 v p.lgk1, ∃ k2 ∈ exp10 v p.lgk2, out ∈ returned_mass_of A v lg_age_yr p.a p.b k1 p.d p.e p.f k2 p.h}

/-- surviving_mstar.py:30-59 `surviving_mstar` -/
noncomputable def surviving_mstar (lg_age_yr : ℝ) (p : SurvivingMstar.Params) : Set ℝ :=
  {out | ∃ r ∈ returned_mass A v lg_age_yr p, out ∈ A.sub 1 r}

/-- remnant_mass.py:20-53 `remnant_mass` with `_log_remnant_mass` -/
noncomputable def remnant_mass (lg_age_yr : ℝ) (p : RemnantMass.Params) : Set ℝ :=
  {out | ∃ k1 ∈ exp10 v p.lgk1, ∃ l ∈ sig_slope A v lg_age_yr p.b p.a p.b k1 p.d p.e, out ∈ exp10 v l}

/-- the eight decimal parameters of `surviving_mstar` read into machine numbers -/
def litSurviving (p : SurvivingMstar.Params) : Set SurvivingMstar.Params :=
  {q | q.a ∈ lit P A p.a ∧ q.b ∈ lit P A p.b ∧ q.lgk1 ∈ lit P A p.lgk1 ∧ q.d ∈ lit P A p.d ∧ q.e ∈ lit P A p.e ∧ q.f ∈ lit P A p.f ∧
    q.lgk2 ∈ lit P A p.lgk2 ∧ q.h ∈ lit P A p.h}

/-- the five decimal parameters of `remnant_mass` read into machine numbers -/
def litRemnant (p : RemnantMass.Params) : Set RemnantMass.Params :=
  {q | q.a ∈ lit P A p.a ∧ q.b ∈ lit P A p.b ∧ q.lgk1 ∈ lit P A p.lgk1 ∧ q.d ∈ lit P A p.d ∧ q.e ∈ lit P A p.e}

end Dsps.Rounded
