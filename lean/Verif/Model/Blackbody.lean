import Verif.Jnp

/-! Model of `/repo/dsps/dust/blackbody.py` (elementwise in the frequency or wavelength array). -/
namespace Dsps.Blackbody

/-- blackbody.py:12 -/
noncomputable def H_PLANCK : ℝ := 6.62607015e-34
/-- blackbody.py:13 -/
noncomputable def K_BOLTZ : ℝ := 1.380649e-23
/-- blackbody.py:14 -/
noncomputable def C_SPEED : ℝ := 299792458.0
/-- blackbody.py:15 -/
noncomputable def WATTS_PER_LSUN : ℝ := 3.828e26
/-- blackbody.py:17 -/
noncomputable def LGH : ℝ := Real.log H_PLANCK
/-- blackbody.py:18 (unused in the module) -/
noncomputable def LGK : ℝ := Real.log K_BOLTZ
/-- blackbody.py:19 -/
noncomputable def LGC : ℝ := Real.log C_SPEED
/-- blackbody.py:20 -/
noncomputable def LG2 : ℝ := Real.log 2

/-- blackbody.py:74-80 `_freq_density_denom` -/
noncomputable def freq_density_denom (freq_hz temp_kelvin : ℝ) : ℝ :=
  let hnu := H_PLANCK * freq_hz
  let kt := K_BOLTZ * temp_kelvin
  let x := hnu / kt
  let denom := 1 / (Real.exp x - 1)
  denom

/-- blackbody.py:83-88 `_jax_bb_freq_density_exparg` -/
noncomputable def jax_bb_freq_density_exparg (freq_hz : ℝ) : ℝ :=
  let lg_term1 := LG2 + LGH - 2 * LGC
  let lg_term2 := 3 * Real.log freq_hz
  let exparg := lg_term1 + lg_term2
  exparg

/-- blackbody.py:91-96 `_blackbody_freq_density_si` -/
noncomputable def blackbody_freq_density_si (freq_hz temp_kelvin : ℝ) : ℝ :=
  let exparg := jax_bb_freq_density_exparg freq_hz
  let denom := freq_density_denom freq_hz temp_kelvin
  denom * Real.exp exparg

/-- blackbody.py:25-45 `blackbody_freq_density` -/
noncomputable def blackbody_freq_density (freq_hz temp_kelvin : ℝ) : ℝ :=
  let bb_si := blackbody_freq_density_si freq_hz temp_kelvin
  let bb_lsun_per_hz := bb_si / WATTS_PER_LSUN
  bb_lsun_per_hz

/-- blackbody.py:99-103 `_jax_bb_frequency_peak` -/
noncomputable def jax_bb_frequency_peak (temp_kelvin : ℝ) : ℝ :=
  let alpha := 5.879e10
  let peak_freq_hz := alpha * temp_kelvin
  peak_freq_hz

/-- blackbody.py:106-110 `_jax_bb_wavelength_peak` -/
noncomputable def jax_bb_wavelength_peak (temp_kelvin : ℝ) : ℝ :=
  let peak_freq_hz := jax_bb_frequency_peak temp_kelvin
  let peak_wave_m := C_SPEED / peak_freq_hz / 1.76
  peak_wave_m

/-- blackbody.py:113-119 `_wave_density_denom` -/
noncomputable def wave_density_denom (wave_meters temp_kelvin : ℝ) : ℝ :=
  let hc := H_PLANCK * C_SPEED
  let kt := K_BOLTZ * temp_kelvin
  let x := hc / kt / wave_meters
  let denom := 1 / (Real.exp x - 1)
  denom

/-- blackbody.py:122-130 `_blackbody_wave_density_si` -/
noncomputable def blackbody_wave_density_si (wave_m temp_kelvin : ℝ) : ℝ :=
  let denom_factor := wave_density_denom wave_m temp_kelvin
  let lg_term1 := LG2 + LGH + 2 * LGC
  let lg_term2 := 5 * Real.log wave_m
  let exparg := lg_term1 - lg_term2
  let wave_factor := Real.exp exparg
  wave_factor * denom_factor

/-- blackbody.py:48-71 `blackbody_wave_density` -/
noncomputable def blackbody_wave_density (wave_aa temp_kelvin : ℝ) : ℝ :=
  let wave_m := wave_aa / 1e10
  let bb_si := blackbody_wave_density_si wave_m temp_kelvin
  let bb_lsun_per_m := bb_si / WATTS_PER_LSUN
  let m_per_aa := 1e-10
  let bb_lsun_per_aa := bb_lsun_per_m * m_per_aa
  bb_lsun_per_aa

end Dsps.Blackbody
