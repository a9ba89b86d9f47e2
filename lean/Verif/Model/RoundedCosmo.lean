import Verif.Model.RoundedSed
import Verif.Model.FlatWcdm

/-! Cosmology (`/repo/dsps/cosmology/flat_wcdm.py`) in machine arithmetic (`Verif/Fl.lean`), operation by operation.  `A` is the arithmetic of
JAX's dtype, `P` that of Python's own floats (binary64), in which expressions without any traced value are evaluated; `v` is the accuracy of the
library functions `exp`, `pow`, `log10`.  `sqrt` is rounded like a basic operation (IEEE 754 requires this).  The redshift and the cosmological
parameters are machine numbers.  `d` is the longest chain of additions in a sum. -/
namespace Dsps.Rounded
open Jnp Fl

variable (P A : Arith) (v : ℝ) {n m : ℕ}

/-- A Python value `x` (already rounded to binary64 if need be) that meets a JAX array: converted to JAX's dtype. -/
def conv (x : Set ℝ) : Set ℝ := {r | ∃ p ∈ x, r ∈ A.rnd p}

/-- A decimal literal of the source that is not a machine number and meets a JAX array: read as binary64, then converted. -/
def lit (x : ℝ) : Set ℝ := conv A (P.rnd x)

/-- `x ** y` for `x > 0`: relative error `v`. -/
noncomputable def pow (x y : ℝ) : Set ℝ := {r | |r - x ^ y| ≤ v * x ^ y}

/-- `lax.exp(x)`: relative error `v`. -/
noncomputable def exp (x : ℝ) : Set ℝ := {r | |r - Real.exp x| ≤ v * Real.exp x}

/-- `jnp.linspace(start, stop, n+2)` as computed by JAX, see `Jnp.linspace`: `start*(1-s) + stop*s`, `s = i/(n+1)`; last entry `stop`. -/
noncomputable def linspace (start stop : ℝ) (n : ℕ) : Set (Fin (n + 2) → ℝ) :=
  vec fun i => {out | if i = Fin.last (n + 1) then out = stop else
    ∃ s ∈ A.div (i : ℝ) ((n : ℝ) + 1), ∃ a ∈ A.sub 1 s, ∃ b ∈ A.mul start a, ∃ c ∈ A.mul stop s, out ∈ A.add b c}

/-- flat_wcdm.py:48-52 `_rho_de_z` -/
noncomputable def rho_de_z (z w0 wa : ℝ) : Set ℝ :=
  {out | ∃ zp1 ∈ A.add 1.0 z, ∃ a ∈ A.div 1.0 zp1, ∃ q1 ∈ A.add 1.0 w0, ∃ q2 ∈ A.add q1 wa, ∃ p ∈ A.mul (-3.0) q2, ∃ f ∈ pow v a p,
    ∃ m ∈ A.mul (-3.0) wa, ∃ t ∈ A.sub 1.0 a, ∃ x ∈ A.mul m t, ∃ e ∈ exp v x, out ∈ A.mul f e}

/-- flat_wcdm.py:55-61 `_Ez` -/
noncomputable def Ez (z Om0 w0 wa : ℝ) : Set ℝ :=
  {out | ∃ zp1 ∈ A.add 1.0 z, ∃ Ode0 ∈ A.sub 1.0 Om0, ∃ c, IntPow A zp1 3 c ∧ ∃ a ∈ A.mul Om0 c, ∃ de ∈ rho_de_z A v z w0 wa,
    ∃ b ∈ A.mul Ode0 de, ∃ t ∈ A.add a b, out ∈ A.rnd (Real.sqrt t)}

/-- flat_wcdm.py:64-66 `_integrand_oneOverEz` -/
noncomputable def integrand_oneOverEz (z Om0 w0 wa : ℝ) : Set ℝ := {out | ∃ E ∈ Ez A v z Om0 w0 wa, out ∈ A.div 1 E}

/-- flat_wcdm.py:74-100 `comoving_distance_to_z` -/
noncomputable def comoving_distance_to_z (d : ℕ) (redshift Om0 w0 wa h : ℝ) : Set ℝ :=
  {out | ∃ z_table ∈ linspace A 0 redshift 254, ∃ integrand ∈ vec fun i => integrand_oneOverEz A v (z_table i) Om0 w0 wa,
    ∃ T ∈ trapezoid A d integrand z_table, ∃ c ∈ lit P A FlatWcdm.C_SPEED, ∃ x ∈ A.mul T c, ∃ k ∈ lit P A 1e-5, ∃ y ∈ A.mul x k,
    out ∈ A.div y h}

/-- flat_wcdm.py:107-129 `luminosity_distance_to_z` -/
noncomputable def luminosity_distance_to_z (d : ℕ) (redshift Om0 w0 wa h : ℝ) : Set ℝ :=
  {out | ∃ D ∈ comoving_distance_to_z P A v d redshift Om0 w0 wa h, ∃ zp1 ∈ A.add 1 redshift, out ∈ A.mul D zp1}

/-- flat_wcdm.py:132-154 `angular_diameter_distance_to_z` -/
noncomputable def angular_diameter_distance_to_z (d : ℕ) (redshift Om0 w0 wa h : ℝ) : Set ℝ :=
  {out | ∃ D ∈ comoving_distance_to_z P A v d redshift Om0 w0 wa h, ∃ zp1 ∈ A.add 1 redshift, out ∈ A.div D zp1}

/-- flat_wcdm.py:157-182 `distance_modulus_to_z` -/
noncomputable def distance_modulus_to_z (d : ℕ) (redshift Om0 w0 wa h : ℝ) : Set ℝ :=
  {out | ∃ d_lum ∈ luminosity_distance_to_z P A v d redshift Om0 w0 wa h, ∃ x ∈ A.mul d_lum 1e5, ∃ l ∈ log10 v x, out ∈ A.mul 5.0 l}

/-- flat_wcdm.py:185-189 `_hubble_time`: `1e-16 * MPC / YEAR` is evaluated by Python. -/
noncomputable def hubble_time (z Om0 w0 wa h : ℝ) : Set ℝ :=
  {out | ∃ E0 ∈ Ez A v z Om0 w0 wa, ∃ a ∈ P.rnd 1e-16, ∃ b ∈ P.rnd FlatWcdm.MPC, ∃ c ∈ P.mul a b, ∃ y ∈ P.rnd FlatWcdm.YEAR,
    ∃ k ∈ conv A (P.div c y), ∃ x ∈ A.div k h, out ∈ A.div x E0}

/-- flat_wcdm.py:214, :241: `1 / _Ez(z_table, Om0, w0, wa) / (1 + z_table)`, one entry -/
noncomputable def integrand_time (z Om0 w0 wa : ℝ) : Set ℝ :=
  {out | ∃ E ∈ Ez A v z Om0 w0 wa, ∃ q ∈ A.div 1 E, ∃ zp1 ∈ A.add 1 z, out ∈ A.div q zp1}

/-- flat_wcdm.py:192-218 `lookback_to_z` -/
noncomputable def lookback_to_z (d : ℕ) (redshift Om0 w0 wa h : ℝ) : Set ℝ :=
  {out | ∃ z_table ∈ linspace A 0 redshift 510, ∃ integrand ∈ vec fun i => integrand_time A v (z_table i) Om0 w0 wa,
    ∃ res ∈ trapezoid A d integrand z_table, ∃ th ∈ hubble_time P A v 0.0 Om0 w0 wa h, out ∈ A.mul th res}

/-- flat_wcdm.py:221-245 `age_at_z0`; `jnp.logspace(0, 3, 512)` is `10 ** jnp.linspace(0, 3, 512)` -/
noncomputable def age_at_z0 (d : ℕ) (Om0 w0 wa h : ℝ) : Set ℝ :=
  {out | ∃ lg ∈ linspace A 0 3 510, ∃ y ∈ vec fun i => exp10 v (lg i), ∃ z_table ∈ vec fun i => A.sub (y i) 1.0,
    ∃ integrand ∈ vec fun i => integrand_time A v (z_table i) Om0 w0 wa, ∃ res ∈ trapezoid A d integrand z_table,
    ∃ th ∈ hubble_time P A v 0.0 Om0 w0 wa h, out ∈ A.mul th res}

/-- flat_wcdm.py:248-252 `_age_at_z_kern` (`age_at_z` is its vmap) -/
noncomputable def age_at_z_kern (d : ℕ) (redshift Om0 w0 wa h : ℝ) : Set ℝ :=
  {out | ∃ t0 ∈ age_at_z0 P A v d Om0 w0 wa h, ∃ tlook ∈ lookback_to_z P A v d redshift Om0 w0 wa h, out ∈ A.sub t0 tlook}

/-- flat_wcdm.py:283-307 `rho_crit` -/
noncomputable def rho_crit (redshift Om0 w0 wa h : ℝ) : Set ℝ :=
  {out | ∃ r ∈ lit P A FlatWcdm.RHO_CRIT0_KPC3_UNITY_H, ∃ a ∈ A.mul r h, ∃ b ∈ A.mul a h, ∃ E ∈ Ez A v redshift Om0 w0 wa,
    ∃ s, IntPow A E 2 s ∧ out ∈ A.mul b s}

/-- flat_wcdm.py:310-313 `_Om_at_z` -/
noncomputable def Om_at_z (z Om0 w0 wa : ℝ) : Set ℝ :=
  {out | ∃ E ∈ Ez A v z Om0 w0 wa, ∃ zp1 ∈ A.add 1.0 z, ∃ c, IntPow A zp1 3 c ∧ ∃ a ∈ A.mul Om0 c, ∃ b ∈ A.div a E, out ∈ A.div b E}

/-- flat_wcdm.py:324-328 `_delta_vir`, one redshift: `18 * jnp.pi**2` is evaluated by Python (`jnp.pi` is a Python float). -/
noncomputable def delta_vir (z Om0 w0 wa : ℝ) : Set ℝ :=
  {out | ∃ O ∈ Om_at_z A v z Om0 w0 wa, ∃ x ∈ A.sub O 1.0, ∃ pi ∈ P.rnd Real.pi, ∃ p2 ∈ pow v pi 2, ∃ k ∈ conv A (P.mul 18 p2),
    ∃ a ∈ A.mul 82.0 x, ∃ s ∈ A.add k a, ∃ x2, IntPow A x 2 x2 ∧ ∃ b ∈ A.mul 39.0 x2, out ∈ A.sub s b}

/-- flat_wcdm.py:331-360 `virial_dynamical_time`, one redshift: `2**1.5` is evaluated by Python. -/
noncomputable def virial_dynamical_time (redshift Om0 w0 wa h : ℝ) : Set ℝ :=
  {out | ∃ delta ∈ delta_vir P A v redshift Om0 w0 wa, ∃ k ∈ conv A (pow v 2 1.5), ∃ th ∈ hubble_time P A v redshift Om0 w0 wa h,
    ∃ a ∈ A.mul k th, ∃ b ∈ pow v delta (-0.5), out ∈ A.mul a b}

/-- flat_wcdm.py:363-368 `hubble_distance_mpc`: `C_SPEED / 1000.0` is evaluated by Python. -/
noncomputable def hubble_distance_mpc (h : ℝ) : Set ℝ :=
  {out | ∃ H0 ∈ A.mul 100.0 h, ∃ c ∈ P.rnd FlatWcdm.C_SPEED, ∃ k ∈ conv A (P.div c 1000.0), out ∈ A.div k H0}

/-- flat_wcdm.py:371-379 `differential_comoving_volume_at_z` -/
noncomputable def differential_comoving_volume_at_z (d : ℕ) (redshift Om0 w0 wa h : ℝ) : Set ℝ :=
  {out | ∃ dh ∈ hubble_distance_mpc P A h, ∃ da ∈ angular_diameter_distance_to_z P A v d redshift Om0 w0 wa h, ∃ zp1 ∈ A.add 1.0 redshift,
    ∃ ez ∈ Ez A v redshift Om0 w0 wa, ∃ x ∈ A.mul zp1 da, ∃ s ∈ pow v x 2.0, ∃ y ∈ A.mul dh s, out ∈ A.div y ez}

end Dsps.Rounded
