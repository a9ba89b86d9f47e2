import Verif.Jnp
import Verif.Model.Utils
import Verif.Model.FlatWcdm

/-! Model of `/repo/dsps/photometry/photometry_kernels.py`, `photpop.py` and `utils.py`. -/
namespace Dsps.Photometry
open Jnp Dsps.Utils Dsps.FlatWcdm

variable {n m nz nm na nf : ℕ}

/-! ### photometry_kernels.py -/

/-- photometry_kernels.py:9 -/
noncomputable def AB0 : ℝ := 1.13492e-13

/-- photometry_kernels.py:125-132 `_obs_flux_ssp` -/
noncomputable def obs_flux_ssp [Dtype] (wave_spec_rest lum_spec : Fin (n + 2) → ℝ)
    (wave_filter trans_filter : Fin (m + 1) → ℝ) (z : ℝ) : ℝ :=
  let lum_zshift_phot := fun i =>
    interpLR (wave_filter i) (fun j => wave_spec_rest j * (1 + z)) lum_spec 0 0
  let integrand := fun i => trans_filter i * lum_zshift_phot i / wave_filter i
  let lum_filter := trapz wave_filter integrand
  lum_filter

/-- photometry_kernels.py:135-140 `_rest_flux_ssp` -/
noncomputable def rest_flux_ssp [Dtype] (wave_spec_rest lum_spec : Fin (n + 2) → ℝ)
    (wave_filter trans_filter : Fin (m + 1) → ℝ) : ℝ :=
  let lum_phot := fun i => interpLR (wave_filter i) wave_spec_rest lum_spec 0 0
  let integrand := fun i => trans_filter i * lum_phot i / wave_filter i
  let lum_filter := trapz wave_filter integrand
  lum_filter

/-- photometry_kernels.py:143-147 `_flux_ab0_at_10pc` -/
noncomputable def flux_ab0_at_10pc (wave_filter trans_filter : Fin (m + 1) → ℝ) : ℝ :=
  let integrand := fun i => trans_filter i * AB0 / wave_filter i
  let lum_ab0_filter := trapz wave_filter integrand
  lum_ab0_filter

/-- photometry_kernels.py:56-59 `_cosmological_dimming_from_table` -/
noncomputable def cosmological_dimming_from_table [Dtype] (z : ℝ) (z_table distance_modulus_table : Fin (n + 2) → ℝ) : ℝ :=
  let distance_modulus := interp z z_table distance_modulus_table
  distance_modulus - 2.5 * log10 (1 + z)

/-- photometry_kernels.py:62-65 `_cosmological_dimming` -/
noncomputable def cosmological_dimming (z Om0 w0 wa h : ℝ) : ℝ :=
  let dmod := distance_modulus_to_z z Om0 w0 wa h
  dmod - 2.5 * log10 (1 + z)

/-- photometry_kernels.py:15-53 `calc_obs_mag` -/
noncomputable def calc_obs_mag [Dtype] (wave_spec_rest lum_spec : Fin (n + 2) → ℝ)
    (wave_filter trans_filter : Fin (m + 1) → ℝ) (redshift Om0 w0 wa h : ℝ) : ℝ :=
  let flux_source := obs_flux_ssp wave_spec_rest lum_spec wave_filter trans_filter redshift
  let flux_ab0 := flux_ab0_at_10pc wave_filter trans_filter
  let mag_no_dimming := -2.5 * log10 (flux_source / flux_ab0)
  let dimming := cosmological_dimming redshift Om0 w0 wa h
  let obs_mag := mag_no_dimming + dimming
  obs_mag

/-- photometry_kernels.py:68-72 `_calc_obs_mag_no_dimming` -/
noncomputable def calc_obs_mag_no_dimming [Dtype] (wave_spec_rest lum_spec : Fin (n + 2) → ℝ)
    (wave_filter trans_filter : Fin (m + 1) → ℝ) (z : ℝ) : ℝ :=
  let flux_source := obs_flux_ssp wave_spec_rest lum_spec wave_filter trans_filter z
  let flux_ab0 := flux_ab0_at_10pc wave_filter trans_filter;
  (-2.5 * log10 (flux_source / flux_ab0))

/-- photometry_kernels.py:99-122 `calc_rest_flux` -/
noncomputable def calc_rest_flux [Dtype] (wave_spec_rest lum_spec : Fin (n + 2) → ℝ)
    (wave_filter trans_filter : Fin (m + 1) → ℝ) : ℝ :=
  let flux_source := rest_flux_ssp wave_spec_rest lum_spec wave_filter trans_filter
  let flux_ab0 := flux_ab0_at_10pc wave_filter trans_filter
  let rest_flux := flux_source / flux_ab0
  rest_flux

/-- photometry_kernels.py:75-96 `calc_rest_mag` -/
noncomputable def calc_rest_mag [Dtype] (wave_spec_rest lum_spec : Fin (n + 2) → ℝ)
    (wave_filter trans_filter : Fin (m + 1) → ℝ) : ℝ :=
  let rest_flux := calc_rest_flux wave_spec_rest lum_spec wave_filter trans_filter
  let rest_mag := -2.5 * log10 rest_flux
  rest_mag

/-! ### photpop.py -/

/-- photpop.py:11 `_calc_obs_mag_vmap_f`: maps over the rows of the two filter arguments. -/
noncomputable def calc_obs_mag_vmap_f [Dtype] (wave lum : Fin (n + 2) → ℝ)
    (filter_waves filter_trans : Fin nf → Fin (m + 1) → ℝ) (z Om0 w0 wa h : ℝ) : Fin nf → ℝ :=
  vmap₂ (fun fw ft => calc_obs_mag wave lum fw ft z Om0 w0 wa h) filter_waves filter_trans

/-- photpop.py:12-14 `_calc_obs_mag_vmap_f_ssp`: maps twice over the leading axes of the luminosities. -/
noncomputable def calc_obs_mag_vmap_f_ssp [Dtype] (wave : Fin (n + 2) → ℝ) (lum : Fin nm → Fin na → Fin (n + 2) → ℝ)
    (filter_waves filter_trans : Fin nf → Fin (m + 1) → ℝ) (z Om0 w0 wa h : ℝ) : Fin nm → Fin na → Fin nf → ℝ :=
  vmap (vmap fun l => calc_obs_mag_vmap_f wave l filter_waves filter_trans z Om0 w0 wa h) lum

/-- photpop.py:15 `_calc_obs_mag_vmap_f_ssp_z` and photpop.py:26-77 `precompute_ssp_obsmags_on_z_table` -/
noncomputable def precompute_ssp_obsmags_on_z_table [Dtype] (ssp_wave : Fin (n + 2) → ℝ)
    (ssp_fluxes : Fin nm → Fin na → Fin (n + 2) → ℝ) (filter_waves filter_trans : Fin nf → Fin (m + 1) → ℝ)
    (z_table : Fin nz → ℝ) (Om0 w0 wa h : ℝ) : Fin nz → Fin nm → Fin na → Fin nf → ℝ :=
  vmap (fun z => calc_obs_mag_vmap_f_ssp ssp_wave ssp_fluxes filter_waves filter_trans z Om0 w0 wa h) z_table

/-- photpop.py:80-115 `precompute_ssp_restmags` with `_calc_rest_mag_vmap_f`, `_calc_rest_mag_vmap_f_ssp` -/
noncomputable def precompute_ssp_restmags [Dtype] (ssp_wave : Fin (n + 2) → ℝ)
    (ssp_fluxes : Fin nm → Fin na → Fin (n + 2) → ℝ) (filter_waves filter_trans : Fin nf → Fin (m + 1) → ℝ) :
    Fin nm → Fin na → Fin nf → ℝ :=
  vmap (vmap fun l => vmap₂ (fun fw ft => calc_rest_mag ssp_wave l fw ft) filter_waves filter_trans) ssp_fluxes

/-- photpop.py:18-23, 118-149 `precompute_ssp_restmags_z_kcorrect` with `_calc_obs_mag_no_dimming_f(_ssp)` -/
noncomputable def precompute_ssp_restmags_z_kcorrect [Dtype] (ssp_wave : Fin (n + 2) → ℝ)
    (ssp_fluxes : Fin nm → Fin na → Fin (n + 2) → ℝ) (filter_waves filter_trans : Fin nf → Fin (m + 1) → ℝ)
    (z_kcorrect : ℝ) : Fin nm → Fin na → Fin nf → ℝ :=
  vmap (vmap fun l => vmap₂ (fun fw ft => calc_obs_mag_no_dimming ssp_wave l fw ft z_kcorrect)
    filter_waves filter_trans) ssp_fluxes

/-! ### utils.py -/

/-- `np.interp(x, xp, fp)` (numpy, not JAX: no guard on short cells) on an increasing table.  numpy returns the end
values outside the table and at the last point, else `slope*(x - xp[j]) + fp[j]` in the cell found by binary search. -/
noncomputable def npInterp (x : ℝ) (xp fp : Fin (n + 2) → ℝ) : ℝ :=
  if last xp ≤ x then last fp else if x < xp 0 then fp 0 else
    let j := interpCell xp x
    (fp j.succ - fp j.castSucc) / (xp j.succ - xp j.castSucc) * (x - xp j.castSucc) + fp j.castSucc

/-- A filter: equally long wavelength and transmission arrays of at least two points. -/
structure Curve where
  k : ℕ
  wave : Fin (k + 2) → ℝ
  trans : Fin (k + 2) → ℝ

/-- `wave.min()` -/
noncomputable def Curve.min (c : Curve) : ℝ := Finset.univ.inf' Finset.univ_nonempty c.wave
/-- `wave.max()` -/
noncomputable def Curve.max (c : Curve) : ℝ := Finset.univ.sup' Finset.univ_nonempty c.wave

/-- photometry/utils.py:30-31: the common length, `n` if given, else the shortest curve.  Lengths are stored
as `length - 2`, so that lengths 0 and 1 are excluded. -/
def commonLength (curves : Fin (nf + 1) → Curve) (n : Option ℕ) : ℕ :=
  match n with
  | some n => n
  | none => Finset.univ.inf' Finset.univ_nonempty fun i => (curves i).k

/-- photometry/utils.py:6-45 `interpolate_filter_trans_curves`.  The first loop (lines 33-35) only assigns variables
that are overwritten before use and is omitted. -/
noncomputable def interpolate_filter_trans_curves (curves : Fin (nf + 1) → Curve) (n : Option ℕ) :
    (Fin (nf + 1) → Fin (commonLength curves n + 2) → ℝ) × (Fin (nf + 1) → Fin (commonLength curves n + 2) → ℝ) :=
  let new_wave := fun i => linspace (curves i).min (curves i).max (commonLength curves n)
  let new_trans := fun i j => npInterp (new_wave i j) (curves i).wave (curves i).trans
  (new_wave, new_trans)

end Dsps.Photometry
