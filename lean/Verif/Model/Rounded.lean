import Verif.Fl
import Verif.Model.Photometry
import Verif.Model.SspWeights

/-! The parts of dsps whose floating-point error can be bounded relative to the result, in machine arithmetic
(`Verif/Fl.lean`): each definition is the set of results the cited lines may produce, operation by operation.
Literals of the source that are not machine numbers are rounded (`A.rnd 0.001`); `2.0`, `0.5`, `1e9` are exact. -/
namespace Dsps.Rounded
open Jnp Fl Dsps.Constants

variable (A : Arith) {n m k w : ℕ}

/-- utils.py:247-254 `_cumtrapz_scan_func` -/
noncomputable def cumtrapz_scan_func (carryover : ℝ × ℝ × ℝ) (el : ℝ × ℝ) : Set ((ℝ × ℝ × ℝ) × ℝ) :=
  let b := el.1
  let fb := el.2
  let a := carryover.1
  let fa := carryover.2.1
  let cumtrapz := carryover.2.2
  {out | ∃ dx ∈ A.sub b a, ∃ s ∈ A.add fb fa, ∃ p ∈ A.mul dx s, ∃ h ∈ A.div p 2.0, ∃ c ∈ A.add cumtrapz h,
    out = ((b, fb, c), c)}

/-- utils.py:257-275 `cumtrapz` -/
noncomputable def cumtrapz (xarr yarr : Fin (n + 1) → ℝ) : Set (Fin (n + 1) → ℝ) :=
  {out | ∃ carry, (carry, out) ∈ Fl.scan (cumtrapz_scan_func A) (xarr 0, yarr 0, 0) (fun i => (xarr i, yarr i))}

/-- utils.py:296-334 `cumulative_mstar_formed` (`T_BIRTH_MIN` and `SFR_MIN` are stored in machine arrays) -/
noncomputable def cumulative_mstar_formed (t_table sfh_table : Fin n → ℝ) : Set (Fin n → ℝ) :=
  {out | ∃ tb ∈ A.rnd T_BIRTH_MIN, ∃ sb ∈ A.rnd SFR_MIN,
    ∃ c ∈ cumtrapz A (setTail (setAt (zeros (n + 1)) 0 tb) t_table) (setTail (setAt (zeros (n + 1)) 0 sb) sfh_table),
    out ∈ vec fun i => A.mul (tail c i) Utils.YEAR_PER_GYR}

/-- `jnp.trapezoid(y, x)`: `0.5 * (diff(x) * (y[1:] + y[:-1])).sum()`, chains of at most `d` additions. -/
noncomputable def trapezoid (d : ℕ) (y x : Fin (n + 1) → ℝ) : Set ℝ :=
  {out | ∃ dx ∈ vec fun i => A.sub (tail x i) (init x i), ∃ s ∈ vec fun i => A.add (tail y i) (init y i),
    ∃ p ∈ vec fun i => A.mul (dx i) (s i), ∃ t ∈ A.sum d p, out ∈ A.mul 0.5 t}

/-- `x / x.sum()`: the last step of stellar_age_weights.py:86-87 (`delta_mstar_at_t_birth`), of
metallicity_weights.py:110-114 (for a non-zero sum) and of ssp_weights.py:88 / :155 -/
noncomputable def normalize {ι : Type*} [DecidableEq ι] (d : ℕ) (x : ι → ℝ) : Set (ι → ℝ) :=
  {out | ∃ t ∈ A.sum d x, out ∈ vec fun i => A.div (x i) t}

/-- ssp_weights.py:87-88 and :154-155: `weights = lgmet_weights * age_weights; weights = weights / weights.sum()`.  For the
lognormal MDF `lgmet_weights` is broadcast along the age axis (`fun i _ => lgmet_weights i`). -/
noncomputable def ssp_weights (d : ℕ) (lgmet_weights : Fin m → Fin n → ℝ) (age_weights : Fin n → ℝ) :
    Set (Fin m × Fin n → ℝ) :=
  {out | ∃ p ∈ vec fun ij : Fin m × Fin n => A.mul (lgmet_weights ij.1 ij.2) (age_weights ij.2), out ∈ normalize A d p}

/-- stellar_sed.py:115-125 (lognormal MDF; :198-208 is the same code): from the weights and the mass to the SED:
`sed_unit_mstar = jnp.sum(ssp_flux * weights, axis=(0, 1)); rest_sed = sed_unit_mstar * mstar_obs` -/
noncomputable def rest_sed (d : ℕ) (ssp_flux : Fin m → Fin n → Fin w → ℝ) (weights : Fin m × Fin n → ℝ) (mstar_obs : ℝ) :
    Set (Fin w → ℝ) :=
  {out | ∃ p ∈ vec fun lij : Fin w × (Fin m × Fin n) => A.mul (ssp_flux lij.2.1 lij.2.2 lij.1) (weights lij.2),
    ∃ s : Fin w → ℝ, (∀ l, s l ∈ A.sum d fun ij => p (l, ij)) ∧ out ∈ vec fun l => A.mul (s l) mstar_obs}

/-- photometry_kernels.py:131-133 and :138-140: from the interpolated luminosities to the flux through the filter:
`integrand = trans_filter * lum_phot / wave_filter; trapz(wave_filter, integrand)` -/
noncomputable def filter_flux (d : ℕ) (wave_filter trans_filter lum_phot : Fin (m + 1) → ℝ) : Set ℝ :=
  {out | ∃ a ∈ vec fun i => A.mul (trans_filter i) (lum_phot i), ∃ b ∈ vec fun i => A.div (a i) (wave_filter i),
    out ∈ trapezoid A d b wave_filter}

/-- photometry_kernels.py:143-147 `_flux_ab0_at_10pc` (the literal `AB0` is rounded) -/
noncomputable def flux_ab0_at_10pc (d : ℕ) (wave_filter trans_filter : Fin (m + 1) → ℝ) : Set ℝ :=
  {out | ∃ ab0 ∈ A.rnd Photometry.AB0, out ∈ filter_flux A d wave_filter trans_filter fun _ => ab0}

/-- photometry_kernels.py:118-122 `calc_rest_flux`, given the interpolated luminosities -/
noncomputable def calc_rest_flux_of_lum (d : ℕ) (wave_filter trans_filter lum_phot : Fin (m + 1) → ℝ) : Set ℝ :=
  {out | ∃ a ∈ filter_flux A d wave_filter trans_filter lum_phot, ∃ b ∈ flux_ab0_at_10pc A d wave_filter trans_filter,
    out ∈ A.div a b}

/-- `jnp.interp` inside a cell, in machine arithmetic: `fp[i-1] + (delta / where(dx0, 1, dx)) * df`, see `Jnp.interpBody`;
comparisons, and hence the choice of the cell, are exact. -/
noncomputable def interpBody [Dtype] (x : ℝ) (xp fp : Fin (n + 2) → ℝ) : Set ℝ :=
  let i := interpCell xp x
  {out | ∃ df ∈ A.sub (fp i.succ) (fp i.castSucc), ∃ dx ∈ A.sub (xp i.succ) (xp i.castSucc),
    ∃ delta ∈ A.sub x (xp i.castSucc),
    (|dx| ≤ Dtype.interpEps ∧ out = fp i.castSucc) ∨
    (¬ |dx| ≤ Dtype.interpEps ∧ ∃ q ∈ A.div delta dx, ∃ p ∈ A.mul q df, out ∈ A.add (fp i.castSucc) p)}

/-- `jnp.interp(x, xp, fp, left=0, right=0)` in machine arithmetic -/
noncomputable def interp0 [Dtype] (x : ℝ) (xp fp : Fin (n + 2) → ℝ) : Set ℝ :=
  {out | (x > last xp ∧ out = 0) ∨ (¬ x > last xp ∧ x < xp 0 ∧ out = 0) ∨
    (¬ x > last xp ∧ ¬ x < xp 0 ∧ out ∈ interpBody A x xp fp)}

/-- photometry_kernels.py:99-122, 135-147 `calc_rest_flux` in machine arithmetic, all steps. -/
noncomputable def calc_rest_flux [Dtype] (d : ℕ) (wave_spec_rest lum_spec : Fin (n + 2) → ℝ)
    (wave_filter trans_filter : Fin (m + 1) → ℝ) : Set ℝ :=
  {out | ∃ lum_phot ∈ vec fun i => interp0 A (wave_filter i) wave_spec_rest lum_spec,
    out ∈ calc_rest_flux_of_lum A d wave_filter trans_filter lum_phot}

/-- photometry_kernels.py:75-96 `calc_rest_mag` in machine arithmetic: `-2.5 * jnp.log10(rest_flux)`, for a library function
`log10` with relative accuracy `v`. -/
noncomputable def calc_rest_mag [Dtype] (v : ℝ) (d : ℕ) (wave_spec_rest lum_spec : Fin (n + 2) → ℝ)
    (wave_filter trans_filter : Fin (m + 1) → ℝ) : Set ℝ :=
  {out | ∃ f ∈ calc_rest_flux A d wave_spec_rest lum_spec wave_filter trans_filter,
    ∃ l, |l - log10 f| ≤ v * |log10 f| ∧ out ∈ A.mul (-2.5) l}

end Dsps.Rounded
