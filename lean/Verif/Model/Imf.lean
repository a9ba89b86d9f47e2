import Verif.Model.Utils

/-! Models of `/repo/dsps/imf/remnant_mass.py` and `/repo/dsps/imf/surviving_mstar.py`. -/
namespace Dsps.RemnantMass
open Jnp Dsps.Utils

/-- remnant_mass.py:8: the five keyword parameters -/
structure Params where
  a : ℝ
  b : ℝ
  lgk1 : ℝ
  d : ℝ
  e : ℝ

/-- remnant_mass.py:8 -/
noncomputable def DEFAULT_PARAMS : Params := ⟨-1.42, 7, 1, 1.3, 0.2⟩
/-- remnant_mass.py:9, 14 -/
noncomputable def SALPETER_PARAMS : Params := { DEFAULT_PARAMS with a := -1.67 }
/-- remnant_mass.py:10, 15 -/
noncomputable def CHABRIER_PARAMS : Params := { DEFAULT_PARAMS with a := -1.42 }
/-- remnant_mass.py:11, 16 -/
noncomputable def KROUPA_PARAMS : Params := { DEFAULT_PARAMS with a := -1.45 }
/-- remnant_mass.py:12, 17 -/
noncomputable def VAN_DOKKUM_PARAMS : Params := { DEFAULT_PARAMS with a := -1.4 }

/-- remnant_mass.py:49-53 `_log_remnant_mass` -/
noncomputable def log_remnant_mass (lg_age_yr a b lgk1 d e : ℝ) : ℝ :=
  let k1 := exp10 lgk1
  let xtp := b
  exp10 (sig_slope lg_age_yr xtp a b k1 d e)

/-- remnant_mass.py:20-46 `remnant_mass`, called as `remnant_mass(lg_age_yr, **params)` -/
noncomputable def remnant_mass (lg_age_yr : ℝ) (p : Params := DEFAULT_PARAMS) : ℝ :=
  log_remnant_mass lg_age_yr p.a p.b p.lgk1 p.d p.e

end Dsps.RemnantMass

namespace Dsps.SurvivingMstar
open Jnp Dsps.Utils

/-- surviving_mstar.py:9-18: the eight keyword parameters -/
structure Params where
  a : ℝ
  b : ℝ
  lgk1 : ℝ
  d : ℝ
  e : ℝ
  f : ℝ
  lgk2 : ℝ
  h : ℝ

/-- surviving_mstar.py:9-18 -/
noncomputable def DEFAULT_PARAMS : Params := ⟨0.225, 8.0, -0.5, 0.145, 0.08, 6.5, 0.7, 0.005⟩
/-- surviving_mstar.py:19, 24 -/
noncomputable def SALPETER_PARAMS : Params := { DEFAULT_PARAMS with a := 0.13, d := 0.055 }
/-- surviving_mstar.py:20, 25 -/
noncomputable def CHABRIER_PARAMS : Params := { DEFAULT_PARAMS with a := 0.225, d := 0.145 }
/-- surviving_mstar.py:21, 26 -/
noncomputable def KROUPA_PARAMS : Params := { DEFAULT_PARAMS with a := 0.211, d := 0.13 }
/-- surviving_mstar.py:22, 27 -/
noncomputable def VAN_DOKKUM_PARAMS : Params := { DEFAULT_PARAMS with a := 0.238, d := 0.156 }

/-- surviving_mstar.py:63-71 `_returned_mass` -/
noncomputable def returned_mass (lg_age_yr a b lgk1 d e f lgk2 h : ℝ) : ℝ :=
  let k1 := exp10 lgk1
  let xtp := b
  let z := sig_slope lg_age_yr xtp a b k1 d e
  let k2 := exp10 lgk2
  let h := sigmoid lg_age_yr f k2 h z
  h

/-- surviving_mstar.py:30-60 `surviving_mstar`, called as `surviving_mstar(lg_age_yr, **params)` -/
noncomputable def surviving_mstar (lg_age_yr : ℝ) (p : Params := DEFAULT_PARAMS) : ℝ :=
  let frac_returned := returned_mass lg_age_yr p.a p.b p.lgk1 p.d p.e p.f p.lgk2 p.h
  1 - frac_returned

end Dsps.SurvivingMstar
