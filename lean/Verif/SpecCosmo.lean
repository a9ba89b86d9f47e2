import Mathlib.Analysis.SpecialFunctions.Pow.Real

/-! Textbook cosmology vocabulary for the statements of C48–C54.  Nothing here refers to the model. -/
namespace Spec

/-- Dark-energy density relative to today for the equation of state `w(a) = w0 + wa (1 - a)`
(Chevallier–Polarski–Linder), as a function of redshift. -/
noncomputable def darkEnergyDensity (w0 wa z : ℝ) : ℝ :=
  (1 + z) ^ (3 * (1 + w0 + wa)) * Real.exp (-3 * wa * z / (1 + z))

/-- Square of the dimensionless expansion rate `H(z)/H0` of a flat universe of matter and dark energy. -/
noncomputable def friedmann (Om0 w0 wa z : ℝ) : ℝ :=
  Om0 * (1 + z) ^ 3 + (1 - Om0) * darkEnergyDensity w0 wa z

/-- A physical matter fraction. -/
def PhysicalOm (Om0 : ℝ) : Prop := 0 ≤ Om0 ∧ Om0 ≤ 1

/-- The dark energy is never phantom for `0 ≤ z`: `w(a) ≥ -1` for all `0 < a ≤ 1`. -/
def NonPhantom (w0 wa : ℝ) : Prop := 0 ≤ 1 + w0 ∧ 0 ≤ 1 + w0 + wa

/-- The dark energy never dilutes faster than matter for `0 ≤ z`: `w(a) ≤ 0` for all `0 < a ≤ 1`. -/
def NonStiff (w0 wa : ℝ) : Prop := w0 ≤ 0 ∧ w0 + wa ≤ 0

end Spec
