/- Model of dsps/data_loaders/defaults.py -/
import Verif.Py

namespace Dsps.DataDefaults
open Py

/-- `/repo/dsps/data_loaders/defaults.py:13-41`, class `SSPData`.  Arrays are nested lists of reals. -/
structure SSPData where
  ssp_lgmet : List ℝ
  ssp_lg_age_gyr : List ℝ
  ssp_wave : List ℝ
  ssp_flux : List (List (List ℝ))
  ssp_emline_wave : Option NamedTuple := none
  ssp_emline_luminosity : Option (List (List (List ℝ))) := none

/-- `/repo/dsps/data_loaders/defaults.py:44` `DEFAULT_SSP_KEYS` -/
def DEFAULT_SSP_KEYS : List Str :=
  [chars! "ssp_lgmet", chars! "ssp_lg_age_gyr", chars! "ssp_wave", chars! "ssp_flux"]

/-- `/repo/dsps/data_loaders/defaults.py:7` `DEFAULT_SSP_BNAME` -/
def DEFAULT_SSP_BNAME : Str := chars! "ssp_data_fsps_v3.2_lgmet_age.h5"

/-- `/repo/dsps/data_loaders/defaults.py:47-59`, class `TransmissionCurve` -/
structure TransmissionCurve where
  wave : List ℝ
  transmission : List ℝ

end Dsps.DataDefaults
