import Verif.Flt
import Verif.Model.Blackbody

/-! `/repo/dsps/dust/blackbody.py` over an abstract float type, to be run under `jax.grad` and with a finite exponent range
(elementwise in the frequency or wavelength array; on `XF` numbers it gives the values of `Model/Blackbody.lean`).
`_jax_bb_frequency_peak` and `_jax_bb_wavelength_peak` are in `Model/Blackbody.lean` only. -/
namespace Dsps.Gen
open Flt Dsps.Blackbody

variable {α : Type} [Flt α]

/-- blackbody.py:74-80 `_freq_density_denom` -/
noncomputable def freq_density_denom (freq_hz temp_kelvin : α) : α :=
  let hnu := lit H_PLANCK * freq_hz
  let kt := lit K_BOLTZ * temp_kelvin
  let x := hnu / kt
  let denom := lit 1 / (exp x - lit 1)
  denom

/-- blackbody.py:83-88 `_jax_bb_freq_density_exparg`; `lg_term1` is computed from numpy floats -/
noncomputable def jax_bb_freq_density_exparg (freq_hz : α) : α :=
  let lg_term1 := LG2 + LGH - 2 * LGC
  let lg_term2 := lit 3 * log freq_hz
  let exparg := lit lg_term1 + lg_term2
  exparg

/-- blackbody.py:91-96 `_blackbody_freq_density_si` -/
noncomputable def blackbody_freq_density_si (freq_hz temp_kelvin : α) : α :=
  let exparg := jax_bb_freq_density_exparg freq_hz
  let denom := freq_density_denom freq_hz temp_kelvin
  denom * exp exparg

/-- blackbody.py:25-45 `blackbody_freq_density` -/
noncomputable def blackbody_freq_density (freq_hz temp_kelvin : α) : α :=
  let bb_si := blackbody_freq_density_si freq_hz temp_kelvin
  let bb_lsun_per_hz := bb_si / lit WATTS_PER_LSUN
  bb_lsun_per_hz

/-- blackbody.py:113-119 `_wave_density_denom`; `hc` is computed from Python floats -/
noncomputable def wave_density_denom (wave_meters temp_kelvin : α) : α :=
  let hc := H_PLANCK * C_SPEED
  let kt := lit K_BOLTZ * temp_kelvin
  let x := lit hc / kt / wave_meters
  let denom := lit 1 / (exp x - lit 1)
  denom

/-- blackbody.py:122-130 `_blackbody_wave_density_si` -/
noncomputable def blackbody_wave_density_si (wave_m temp_kelvin : α) : α :=
  let denom_factor := wave_density_denom wave_m temp_kelvin
  let lg_term1 := LG2 + LGH + 2 * LGC
  let lg_term2 := lit 5 * log wave_m
  let exparg := lit lg_term1 - lg_term2
  let wave_factor := exp exparg
  wave_factor * denom_factor

/-- blackbody.py:48-71 `blackbody_wave_density` -/
noncomputable def blackbody_wave_density (wave_aa temp_kelvin : α) : α :=
  let wave_m := wave_aa / lit 1e10
  let bb_si := blackbody_wave_density_si wave_m temp_kelvin
  let bb_lsun_per_m := bb_si / lit WATTS_PER_LSUN
  let m_per_aa := 1e-10
  let bb_lsun_per_aa := bb_lsun_per_m * lit m_per_aa
  bb_lsun_per_aa

end Dsps.Gen
