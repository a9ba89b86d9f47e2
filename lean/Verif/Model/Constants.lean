import Mathlib.Data.Real.Basic

/-! Model of `/repo/dsps/constants.py`. -/
namespace Dsps.Constants

/-- constants.py:4 -/
noncomputable def SFR_MIN : ℝ := 1e-14
/-- constants.py:5 -/
noncomputable def T_BIRTH_MIN : ℝ := 0.001
/-- constants.py:6 -/
noncomputable def T_TABLE_MIN : ℝ := 0.01
/-- constants.py:7 -/
def N_T_LGSM_INTEGRATION : ℕ := 100
/-- constants.py:10 -/
noncomputable def LGMET_LO : ℝ := -10.0
/-- constants.py:10 -/
noncomputable def LGMET_HI : ℝ := 10.0
/-- constants.py:12 -/
noncomputable def L_SUN_CGS : ℝ := 3.828e33

end Dsps.Constants
