import Mathlib.Analysis.SpecialFunctions.Exp

/-! Planck's law, for the statements of C60, C61 and C74.  Nothing here refers to the model. -/
namespace Spec

/-- Planck spectral radiance per unit frequency, with Planck constant `h`, Boltzmann constant `k`, light speed `c`. -/
noncomputable def planckNu (h k c nu T : ℝ) : ℝ := 2 * h * nu ^ 3 / c ^ 2 * (1 / (Real.exp (h * nu / (k * T)) - 1))

/-- Planck spectral radiance per unit wavelength. -/
noncomputable def planckLambda (h k c lam T : ℝ) : ℝ :=
  2 * h * c ^ 2 / lam ^ 5 * (1 / (Real.exp (h * c / (lam * k * T)) - 1))

end Spec
