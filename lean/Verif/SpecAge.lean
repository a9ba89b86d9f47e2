import Verif.Model.Utils

/-! Specification vocabulary for stellar ages: birth times and the mass-growth history. -/
namespace Spec
open Jnp Dsps.Utils

variable {n : ℕ}

/-- cosmic birth time in Gyr of a star of age `10^lg_age` Gyr observed at `t_obs`, never before 0.001 Gyr -/
noncomputable def birthTime (t_obs lg_age : ℝ) : ℝ := max 0.001 (t_obs - (10 : ℝ) ^ lg_age)

/-- mass formed by cosmic time `τ`: linear interpolation of log10(cumulative mass) in log10(time), where the cumulative
mass is `cumulative_mstar_formed` of the SFH floored at `sfr_min` -/
noncomputable def massFormed [Dtype] (t s : Fin (n + 2) → ℝ) (sfr_min τ : ℝ) : ℝ :=
  (10 : ℝ) ^ interp (Real.logb 10 τ) (fun i => Real.logb 10 (t i))
    (fun i => Real.logb 10 (cumulative_mstar_formed t (fun j => max sfr_min (s j)) i))

end Spec
