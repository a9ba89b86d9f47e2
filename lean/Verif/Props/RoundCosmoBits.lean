import Verif.Props.RoundCosmo
import Verif.Props.RoundAge
import Verif.Props.RoundMet
import Mathlib.Analysis.Complex.ExponentialBounds

/-! C117 in numbers: the bounds of `Verif/Props/RoundCosmo.lean` in single and in double precision for ordinary cosmologies, and an existence
statement: the machine programs do have results. -/
namespace Dsps.Props
open Jnp Fl Spec Dsps.Lemmas

variable {P A : Arith} {v ε : ℝ} {Om0 w0 wa h z : ℝ} {d : ℕ}

/-- **Double precision**: unit roundoff `2^-53` for Python and for JAX, library functions accurate to `2^-50`. -/
def Float64 (P A : Arith) (v : ℝ) : Prop := P.u ≤ 2 ^ (-53:ℤ) ∧ A.u ≤ 2 ^ (-53:ℤ) ∧ 0 ≤ v ∧ v ≤ 2 ^ (-50:ℤ)

/-- **Single precision** (JAX's default): unit roundoff `2^-53` for Python and `2^-24` for JAX, library functions accurate to `2^-20`. -/
def Float32 (P A : Arith) (v : ℝ) : Prop := P.u ≤ 2 ^ (-53:ℤ) ∧ A.u ≤ 2 ^ (-24:ℤ) ∧ 0 ≤ v ∧ v ≤ 2 ^ (-20:ℤ)

lemma Float64.machine (H : Float64 P A v) : Machine P A v (2 ^ (-50:ℤ)) :=
  ⟨H.1.trans (by norm_num), H.2.1.trans (by norm_num), H.2.2.1, H.2.2.2, by norm_num⟩

lemma Float32.machine (H : Float32 P A v) : Machine P A v (2 ^ (-20:ℤ)) :=
  ⟨H.1.trans (by norm_num), H.2.1.trans (by norm_num), H.2.2.1, H.2.2.2, by norm_num⟩

/-- **An ordinary cosmology**: dark energy neither phantom nor stiff, `|w0| + |wa| ≤ 2`, positive Hubble parameter; redshift up to 10.  The
three cosmologies of the code (below) are ordinary. -/
structure Ordinary (Om0 w0 wa h z : ℝ) : Prop where
  om : PhysicalOm Om0
  nonphantom : NonPhantom w0 wa
  nonstiff : NonStiff w0 wa
  size : |w0| + |wa| ≤ 2
  hubble : 0 < h
  z_pos : 0 < z
  z_le : z ≤ 10

lemma log_eleven : Real.log 11 ≤ 2.41 := by
  have h1 := log10_bounds.2
  have : Real.log 11 = Real.log 10 + Real.log 1.1 := by rw [← Real.log_mul (by norm_num) (by norm_num)]; norm_num
  have h2 := Real.log_le_sub_one_of_pos (by norm_num : (0:ℝ) < 1.1)
  rw [this]; norm_num at h1 h2 ⊢; linarith

lemma log_thousand : Real.log (1 + 999) ≤ 6.91 := by
  have h1 := log10_bounds.2
  have : Real.log (1 + 999) = 3 * Real.log 10 := by rw [show (1:ℝ) + 999 = 10 ^ (3:ℕ) by norm_num, Real.log_pow]; norm_num
  rw [this]; norm_num at h1 ⊢; linarith

lemma EzCost_le {κ L : ℝ} (hκ : 0 ≤ κ) (hz : 0 ≤ z) (hL : Real.log (1 + z) ≤ L) (hs : |w0| + |wa| ≤ 2) :
    EzCost κ z w0 wa ≤ 3 * (3.05 * κ + 11.5 + 4.55 * L) + 2.5 := by
  unfold EzCost
  have h0 : 0 ≤ Real.log (1 + z) := Real.log_nonneg (by linarith)
  gcongr
  · linarith

lemma gridCost_np (H : NonPhantom w0 wa) (n : ℕ) : gridCost n w0 wa = 3 := by unfold gridCost; rw [if_pos H]

lemma ordinary_costs (H : Ordinary Om0 w0 wa h z) (hd : d ≤ 511) :
    distCost d z w0 wa ≤ 625 ∧ lookCost d z w0 wa ≤ 669 ∧ ageCost d w0 wa ≤ 1029 ∧ EzCost 0 z w0 wa ≤ 70 := by
  have hz := H.z_pos.le
  have hlog : Real.log (1 + z) ≤ 2.41 := (Real.log_le_log (by linarith) (by linarith [H.z_le])).trans log_eleven
  have hdr : (d:ℝ) ≤ 511 := by exact_mod_cast hd
  have e1 := EzCost_le (κ := 3) (by norm_num) hz hlog H.size
  have e2 := EzCost_le (κ := 0) (z := 0) (L := 0) le_rfl le_rfl (by simp) H.size
  have e3 := EzCost_le (κ := 23) (z := 999) (by norm_num) (by norm_num) log_thousand H.size
  have e4 := EzCost_le (κ := 0) le_rfl hz hlog H.size
  have e5 : ageGridCost w0 wa = 98 := by unfold ageGridCost; rw [if_pos ⟨H.nonphantom, H.nonstiff⟩]
  unfold distCost lookCost ageCost
  rw [gridCost_np H.nonphantom, gridCost_np H.nonphantom, e5]
  norm_num at e1 e2 e3 e4
  refine ⟨?_, ?_, ?_, ?_⟩ <;> linarith

/-- the exact values are non-negative -/
lemma ordinary_nonneg (H : Ordinary Om0 w0 wa h z) :
    0 ≤ FlatWcdm.luminosity_distance_to_z z Om0 w0 wa h ∧ 0 ≤ FlatWcdm.angular_diameter_distance_to_z z Om0 w0 wa h ∧
    0 ≤ FlatWcdm.lookback_to_z z Om0 w0 wa h ∧ 0 ≤ FlatWcdm.age_at_z0 Om0 w0 wa h ∧ 0 ≤ FlatWcdm.rho_crit z Om0 w0 wa h ∧
    0 ≤ FlatWcdm.virial_dynamical_time (fun _ : Fin 1 => z) Om0 w0 wa h 0 ∧
    0 ≤ FlatWcdm.differential_comoving_volume_at_z z Om0 w0 wa h := by
  have hz := H.z_pos.le
  have hA := binary_nonempty 53 (by norm_num)
  have hE := Ez_pos (show -1 < z by linarith) H.om w0 wa
  have hh := H.hubble
  have h8 : 0 ≤ FlatWcdm.angular_diameter_distance_to_z z Om0 w0 wa h := by
    unfold FlatWcdm.angular_diameter_distance_to_z
    rw [comoving_eq]
    have := Dtrap_pos H.z_pos H.om w0 wa
    have := CK_pos H.hubble
    positivity
  refine ⟨(lum_pos H.om H.z_pos hh).le, h8, ?_, ?_, ?_, ?_, ?_⟩
  · rw [lookback_eq]
    exact (mul_pos (Th_pos hh) (Ttrap_pos H.z_pos H.om w0 wa)).le
  · rw [age0_eq]
    exact (mul_pos (Th_pos hh) (Atrap_pos H.om w0 wa)).le
  · unfold FlatWcdm.rho_crit FlatWcdm.RHO_CRIT0_KPC3_UNITY_H
    positivity
  · obtain ⟨-, -, hpos, -⟩ := C53_delta_vir (fun _ : Fin 1 => z) 0 (by linarith) H.om w0 wa
    unfold FlatWcdm.virial_dynamical_time FlatWcdm.hubble_time FlatWcdm.MPC FlatWcdm.YEAR
    have h7 : 0 < FlatWcdm.delta_vir (fun _ : Fin 1 => z) Om0 w0 wa 0 := by linarith
    simp only
    positivity
  · unfold FlatWcdm.differential_comoving_volume_at_z FlatWcdm.hubble_distance_mpc FlatWcdm.C_SPEED
    simp only
    positivity

/-- the distances, times and densities of ordinary cosmologies, in roundings -/
lemma ordinary_errors (M : Machine P A v ε) (H : Ordinary Om0 w0 wa h z) (hd : d ≤ 511) :
    (∀ r ∈ Rounded.luminosity_distance_to_z P A v d z Om0 w0 wa h,
      |r - FlatWcdm.luminosity_distance_to_z z Om0 w0 wa h| ≤ 640 * ε * FlatWcdm.luminosity_distance_to_z z Om0 w0 wa h) ∧
    (∀ r ∈ Rounded.angular_diameter_distance_to_z P A v d z Om0 w0 wa h,
      |r - FlatWcdm.angular_diameter_distance_to_z z Om0 w0 wa h| ≤ 640 * ε * FlatWcdm.angular_diameter_distance_to_z z Om0 w0 wa h) ∧
    (∀ r ∈ Rounded.distance_modulus_to_z P A v d z Om0 w0 wa h,
      |r - FlatWcdm.distance_modulus_to_z z Om0 w0 wa h| ≤ 1370 * ε + 2.03 * ε * max 5 |FlatWcdm.distance_modulus_to_z z Om0 w0 wa h|) ∧
    (∀ r ∈ Rounded.lookback_to_z P A v d z Om0 w0 wa h,
      |r - FlatWcdm.lookback_to_z z Om0 w0 wa h| ≤ 683 * ε * FlatWcdm.lookback_to_z z Om0 w0 wa h) ∧
    (∀ r ∈ Rounded.age_at_z0 P A v d Om0 w0 wa h,
      |r - FlatWcdm.age_at_z0 Om0 w0 wa h| ≤ 1050 * ε * FlatWcdm.age_at_z0 Om0 w0 wa h) ∧
    (∀ r ∈ Rounded.rho_crit P A v z Om0 w0 wa h,
      |r - FlatWcdm.rho_crit z Om0 w0 wa h| ≤ 149 * ε * FlatWcdm.rho_crit z Om0 w0 wa h) ∧
    (∀ r ∈ Rounded.virial_dynamical_time P A v z Om0 w0 wa h,
      |r - FlatWcdm.virial_dynamical_time (fun _ : Fin 1 => z) Om0 w0 wa h 0|
        ≤ 329 * ε * FlatWcdm.virial_dynamical_time (fun _ : Fin 1 => z) Om0 w0 wa h 0) ∧
    (∀ r ∈ Rounded.differential_comoving_volume_at_z P A v d z Om0 w0 wa h,
      |r - FlatWcdm.differential_comoving_volume_at_z z Om0 w0 wa h|
        ≤ 1363 * ε * FlatWcdm.differential_comoving_volume_at_z z Om0 w0 wa h) := by
  obtain ⟨c1, c2, c3, c4⟩ := ordinary_costs H hd
  have hε := M.eps_nonneg
  have h6 := M.small
  have hz := H.z_pos.le
  have n1 := distCost_nonneg d hz w0 wa
  have n4 := EzCost_nonneg (κ := 0) le_rfl hz w0 wa
  have small : ∀ K : ℝ, K ≤ 9000 → K * ε ≤ 0.0099 := fun K hK => by
    have : K * ε ≤ 9000 * 1e-6 := mul_le_mul hK h6 hε (by norm_num)
    norm_num at this ⊢; linarith
  have up : ∀ {K k x : ℝ}, 0 ≤ x → 1.02 * K ≤ k → 1.02 * K * ε * x ≤ k * ε * x := fun hx hk => by gcongr
  obtain ⟨-, b2, b3⟩ := C117_distances (d := d) (w0 := w0) (wa := wa) M H.om hz H.hubble (small _ (by linarith))
  obtain ⟨b4, b5⟩ := C117_times (d := d) (w0 := w0) (wa := wa) M H.om hz H.hubble (small _ (by linarith)) (small _ (by linarith))
  obtain ⟨-, b6⟩ := C117_virial_time (w0 := w0) (wa := wa) M H.om hz H.hubble (small _ (by linarith))
  obtain ⟨p1, p2, p4, p5, p6, p7, p8⟩ := ordinary_nonneg H
  refine ⟨fun r hr => (b2 r hr).trans (up p1 (by linarith)), fun r hr => (b3 r hr).trans (up p2 (by linarith)), fun r hr => ?_,
    fun r hr => (b4 r hr).trans (up p4 (by linarith)), fun r hr => (b5 r hr).trans (up p5 (by linarith)),
    fun r hr => (C117_rho_crit M H.om hz H.hubble (small _ (by linarith)) hr).trans (up p6 (by linarith)),
    fun r hr => (b6 r hr).trans (up p7 (by unfold virialCost; linarith)),
    fun r hr => (C117_comoving_volume M H.om H.z_pos H.hubble (small _ (by linarith)) hr).trans (up p8 (by linarith))⟩
  have := C117_distance_modulus M H.om H.z_pos H.hubble (small _ (by linarith)) hr
  refine this.trans (add_le_add (mul_le_mul_of_nonneg_right ?_ hε) le_rfl)
  linarith

/-- C117 in double precision: relative errors (distance modulus: magnitudes) for ordinary cosmologies and redshifts up to 10, the quadrature sums being
evaluated in any order of additions. -/
theorem C117_float64 (B : Float64 P A v) (H : Ordinary Om0 w0 wa h z) (hd : d ≤ 511) :
    (∀ r ∈ Rounded.luminosity_distance_to_z P A v d z Om0 w0 wa h,
      |r - FlatWcdm.luminosity_distance_to_z z Om0 w0 wa h| ≤ 5.7e-13 * FlatWcdm.luminosity_distance_to_z z Om0 w0 wa h) ∧
    (∀ r ∈ Rounded.angular_diameter_distance_to_z P A v d z Om0 w0 wa h,
      |r - FlatWcdm.angular_diameter_distance_to_z z Om0 w0 wa h| ≤ 5.7e-13 * FlatWcdm.angular_diameter_distance_to_z z Om0 w0 wa h) ∧
    (∀ r ∈ Rounded.distance_modulus_to_z P A v d z Om0 w0 wa h,
      |r - FlatWcdm.distance_modulus_to_z z Om0 w0 wa h| ≤ 1.22e-12 + 1.81e-15 * max 5 |FlatWcdm.distance_modulus_to_z z Om0 w0 wa h|) ∧
    (∀ r ∈ Rounded.lookback_to_z P A v d z Om0 w0 wa h,
      |r - FlatWcdm.lookback_to_z z Om0 w0 wa h| ≤ 6.1e-13 * FlatWcdm.lookback_to_z z Om0 w0 wa h) ∧
    (∀ r ∈ Rounded.age_at_z0 P A v d Om0 w0 wa h,
      |r - FlatWcdm.age_at_z0 Om0 w0 wa h| ≤ 9.4e-13 * FlatWcdm.age_at_z0 Om0 w0 wa h) ∧
    (∀ r ∈ Rounded.rho_crit P A v z Om0 w0 wa h,
      |r - FlatWcdm.rho_crit z Om0 w0 wa h| ≤ 1.4e-13 * FlatWcdm.rho_crit z Om0 w0 wa h) ∧
    (∀ r ∈ Rounded.virial_dynamical_time P A v z Om0 w0 wa h,
      |r - FlatWcdm.virial_dynamical_time (fun _ : Fin 1 => z) Om0 w0 wa h 0|
        ≤ 3e-13 * FlatWcdm.virial_dynamical_time (fun _ : Fin 1 => z) Om0 w0 wa h 0) ∧
    (∀ r ∈ Rounded.differential_comoving_volume_at_z P A v d z Om0 w0 wa h,
      |r - FlatWcdm.differential_comoving_volume_at_z z Om0 w0 wa h|
        ≤ 1.22e-12 * FlatWcdm.differential_comoving_volume_at_z z Om0 w0 wa h) := by
  obtain ⟨b1, b2, b3, b4, b5, b6, b7, b8⟩ := ordinary_errors (d := d) B.machine H hd
  obtain ⟨p1, p2, p4, p5, p6, p7, p8⟩ := ordinary_nonneg H
  exact ⟨fun r hr => (b1 r hr).trans (mul_le_mul_of_nonneg_right (by norm_num) p1),
    fun r hr => (b2 r hr).trans (mul_le_mul_of_nonneg_right (by norm_num) p2),
    fun r hr => (b3 r hr).trans (add_le_add (by norm_num) (mul_le_mul_of_nonneg_right (by norm_num) (by positivity))),
    fun r hr => (b4 r hr).trans (mul_le_mul_of_nonneg_right (by norm_num) p4),
    fun r hr => (b5 r hr).trans (mul_le_mul_of_nonneg_right (by norm_num) p5),
    fun r hr => (b6 r hr).trans (mul_le_mul_of_nonneg_right (by norm_num) p6),
    fun r hr => (b7 r hr).trans (mul_le_mul_of_nonneg_right (by norm_num) p7),
    fun r hr => (b8 r hr).trans (mul_le_mul_of_nonneg_right (by norm_num) p8)⟩

/-- C117 in single precision (JAX's default): relative errors (distance modulus: magnitudes) for ordinary cosmologies and redshifts up to 10, the quadrature sums being
evaluated in any order of additions. -/
theorem C117_float32 (B : Float32 P A v) (H : Ordinary Om0 w0 wa h z) (hd : d ≤ 511) :
    (∀ r ∈ Rounded.luminosity_distance_to_z P A v d z Om0 w0 wa h,
      |r - FlatWcdm.luminosity_distance_to_z z Om0 w0 wa h| ≤ 6.2e-4 * FlatWcdm.luminosity_distance_to_z z Om0 w0 wa h) ∧
    (∀ r ∈ Rounded.angular_diameter_distance_to_z P A v d z Om0 w0 wa h,
      |r - FlatWcdm.angular_diameter_distance_to_z z Om0 w0 wa h| ≤ 6.2e-4 * FlatWcdm.angular_diameter_distance_to_z z Om0 w0 wa h) ∧
    (∀ r ∈ Rounded.distance_modulus_to_z P A v d z Om0 w0 wa h,
      |r - FlatWcdm.distance_modulus_to_z z Om0 w0 wa h| ≤ 1.31e-3 + 1.95e-6 * max 5 |FlatWcdm.distance_modulus_to_z z Om0 w0 wa h|) ∧
    (∀ r ∈ Rounded.lookback_to_z P A v d z Om0 w0 wa h,
      |r - FlatWcdm.lookback_to_z z Om0 w0 wa h| ≤ 6.6e-4 * FlatWcdm.lookback_to_z z Om0 w0 wa h) ∧
    (∀ r ∈ Rounded.age_at_z0 P A v d Om0 w0 wa h,
      |r - FlatWcdm.age_at_z0 Om0 w0 wa h| ≤ 1.01e-3 * FlatWcdm.age_at_z0 Om0 w0 wa h) ∧
    (∀ r ∈ Rounded.rho_crit P A v z Om0 w0 wa h,
      |r - FlatWcdm.rho_crit z Om0 w0 wa h| ≤ 1.5e-4 * FlatWcdm.rho_crit z Om0 w0 wa h) ∧
    (∀ r ∈ Rounded.virial_dynamical_time P A v z Om0 w0 wa h,
      |r - FlatWcdm.virial_dynamical_time (fun _ : Fin 1 => z) Om0 w0 wa h 0|
        ≤ 3.2e-4 * FlatWcdm.virial_dynamical_time (fun _ : Fin 1 => z) Om0 w0 wa h 0) ∧
    (∀ r ∈ Rounded.differential_comoving_volume_at_z P A v d z Om0 w0 wa h,
      |r - FlatWcdm.differential_comoving_volume_at_z z Om0 w0 wa h|
        ≤ 1.31e-3 * FlatWcdm.differential_comoving_volume_at_z z Om0 w0 wa h) := by
  obtain ⟨b1, b2, b3, b4, b5, b6, b7, b8⟩ := ordinary_errors (d := d) B.machine H hd
  obtain ⟨p1, p2, p4, p5, p6, p7, p8⟩ := ordinary_nonneg H
  exact ⟨fun r hr => (b1 r hr).trans (mul_le_mul_of_nonneg_right (by norm_num) p1),
    fun r hr => (b2 r hr).trans (mul_le_mul_of_nonneg_right (by norm_num) p2),
    fun r hr => (b3 r hr).trans (add_le_add (by norm_num) (mul_le_mul_of_nonneg_right (by norm_num) (by positivity))),
    fun r hr => (b4 r hr).trans (mul_le_mul_of_nonneg_right (by norm_num) p4),
    fun r hr => (b5 r hr).trans (mul_le_mul_of_nonneg_right (by norm_num) p5),
    fun r hr => (b6 r hr).trans (mul_le_mul_of_nonneg_right (by norm_num) p6),
    fun r hr => (b7 r hr).trans (mul_le_mul_of_nonneg_right (by norm_num) p7),
    fun r hr => (b8 r hr).trans (mul_le_mul_of_nonneg_right (by norm_num) p8)⟩

/-! ### The hypotheses are met: IEEE arithmetic, the cosmologies of the code, and results exist -/

lemma float64_ieee : Float64 f64 f64 (2 ^ (-50:ℤ)) := by
  refine ⟨?_, ?_, by positivity, le_rfl⟩ <;> (show ((1:ℝ) / 2) ^ 53 ≤ _; norm_num)

lemma float32_ieee : Float32 f64 (binary 24 (by norm_num)) (2 ^ (-20:ℤ)) := by
  refine ⟨?_, ?_, by positivity, le_rfl⟩
  · show ((1:ℝ) / 2) ^ 53 ≤ _; norm_num
  · show ((1:ℝ) / 2) ^ 24 ≤ _; norm_num

lemma ordinary_planck15 : Ordinary 0.3075 (-1.0) 0.0 0.6774 2 := by
  constructor <;> norm_num [PhysicalOm, NonPhantom, NonStiff]

lemma ordinary_wmap5 : Ordinary 0.277 (-1.0) 0.0 0.702 2 := by
  constructor <;> norm_num [PhysicalOm, NonPhantom, NonStiff]

lemma ordinary_fsps : Ordinary 0.27 (-1.0) 0.0 0.72 2 := by
  constructor <;> norm_num [PhysicalOm, NonPhantom, NonStiff]

lemma pow_nonempty (hv : 0 ≤ v) {x : ℝ} (hx : 0 ≤ x) (y : ℝ) : (Rounded.pow v x y).Nonempty :=
  ⟨x ^ y, by simp only [Rounded.pow, Set.mem_setOf_eq, sub_self, abs_zero]; exact mul_nonneg hv (Real.rpow_nonneg hx _)⟩

lemma exp_nonempty (hv : 0 ≤ v) (x : ℝ) : (Rounded.exp v x).Nonempty :=
  ⟨Real.exp x, by simp only [Rounded.exp, Set.mem_setOf_eq, sub_self, abs_zero]; positivity⟩

lemma linspace_nonempty (hA : ∀ x, (A.rnd x).Nonempty) (a b : ℝ) (n : ℕ) : (Rounded.linspace A a b n).Nonempty := by
  refine vec_nonempty fun i => ?_
  by_cases hi : i = Fin.last (n + 1)
  · exact ⟨b, by simp [hi]⟩
  · obtain ⟨r, hr⟩ : {out | ∃ s ∈ A.div (i : ℝ) ((n : ℝ) + 1), ∃ p ∈ A.sub 1 s, ∃ q ∈ A.mul a p, ∃ c ∈ A.mul b s, out ∈ A.add q c}.Nonempty :=
      ⟨_, _, (hA _).some_mem, _, (hA _).some_mem, _, (hA _).some_mem, _, (hA _).some_mem, (hA _).some_mem⟩
    exact ⟨r, by rw [Set.mem_setOf_eq, if_neg hi]; exact hr⟩

/-- the machine program of `Ez` has a result, if `1/(1+z)` comes out non-negative -/
lemma Ez_nonempty (M : Machine P A v ε) (hA : ∀ x, (A.rnd x).Nonempty) (hz : 0 ≤ z) (Om0 w0 wa : ℝ) : (Rounded.Ez A v z Om0 w0 wa).Nonempty := by
  obtain ⟨zp1, hzp⟩ := hA (1.0 + z)
  obtain ⟨a, ha⟩ := hA (1.0 / zp1)
  have wz := (Close.refl (show 0 ≤ 1.0 + z by norm_num; linarith)).rnd M.tolA hzp
  have ha0 : 0 ≤ a := (((Close.refl (show (0:ℝ) ≤ 1.0 by norm_num)).div wz).rnd M.tolA ha).nonneg
  have hde : (Rounded.rho_de_z A v z w0 wa).Nonempty :=
    ⟨_, zp1, hzp, a, ha, _, (hA _).some_mem, _, (hA _).some_mem, _, (hA _).some_mem, _, (pow_nonempty M.lib_nonneg ha0 _).some_mem,
      _, (hA _).some_mem, _, (hA _).some_mem, _, (hA _).some_mem, _, (exp_nonempty M.lib_nonneg _).some_mem, (hA _).some_mem⟩
  obtain ⟨c, hc⟩ := intPow_nonempty hA zp1 2
  exact ⟨_, zp1, hzp, _, (hA _).some_mem, c, hc, _, (hA _).some_mem, _, hde.some_mem, _, (hA _).some_mem, _, (hA _).some_mem, (hA _).some_mem⟩

lemma linspace_mem_nonneg (M : Machine P A v ε) (hz : 0 ≤ z) {n : ℕ} {x : Fin (n + 2) → ℝ} (hx : x ∈ Rounded.linspace A 0 z n) (i : Fin (n + 2)) : 0 ≤ x i :=
  (close_linspace M.tolA hz hx i).nonneg

/-- The machine programs have results: the theorems above are not about empty sets. -/
theorem C117_results_exist (M : Machine P A v ε) (hA : ∀ x, (A.rnd x).Nonempty) (hP : ∀ x, (P.rnd x).Nonempty) (hz : 0 ≤ z) (hd : 511 ≤ d) :
    (Rounded.distance_modulus_to_z P A v d z Om0 w0 wa h).Nonempty ∧ (Rounded.lookback_to_z P A v d z Om0 w0 wa h).Nonempty := by
  have lit : ∀ x, (Rounded.lit P A x).Nonempty := fun x => ⟨_, _, (hP x).some_mem, (hA _).some_mem⟩
  have hlog : ∀ x, (Rounded.log10 v x).Nonempty := log10_nonempty M.lib_nonneg
  have th : (Rounded.hubble_time P A v 0.0 Om0 w0 wa h).Nonempty :=
    ⟨_, _, (Ez_nonempty M hA (by norm_num) Om0 w0 wa).some_mem, _, (hP _).some_mem, _, (hP _).some_mem, _, (hP _).some_mem, _, (hP _).some_mem,
      _, ⟨_, (hP _).some_mem, (hA _).some_mem⟩, _, (hA _).some_mem, (hA _).some_mem⟩
  constructor
  · obtain ⟨x, hx⟩ := linspace_nonempty hA 0 z 254
    have hi : ∀ i, (Rounded.integrand_oneOverEz A v (x i) Om0 w0 wa).Nonempty := fun i =>
      ⟨_, _, (Ez_nonempty M hA (linspace_mem_nonneg M hz hx i) Om0 w0 wa).some_mem, (hA _).some_mem⟩
    have hD : (Rounded.comoving_distance_to_z P A v d z Om0 w0 wa h).Nonempty :=
      ⟨_, x, hx, _, (vec_nonempty hi).some_mem, _, (trapezoid_nonempty hA _ _ (by omega)).some_mem, _, (lit _).some_mem, _, (hA _).some_mem,
        _, (lit _).some_mem, _, (hA _).some_mem, (hA _).some_mem⟩
    exact ⟨_, _, ⟨_, hD.some_mem, _, (hA _).some_mem, (hA _).some_mem⟩, _, (hA _).some_mem, _, (hlog _).some_mem, (hA _).some_mem⟩
  · obtain ⟨x, hx⟩ := linspace_nonempty hA 0 z 510
    have hi : ∀ i, (Rounded.integrand_time A v (x i) Om0 w0 wa).Nonempty := fun i =>
      ⟨_, _, (Ez_nonempty M hA (linspace_mem_nonneg M hz hx i) Om0 w0 wa).some_mem, _, (hA _).some_mem, _, (hA _).some_mem, (hA _).some_mem⟩
    exact ⟨_, x, hx, _, (vec_nonempty hi).some_mem, _, (trapezoid_nonempty hA _ _ (by omega)).some_mem, _, th.some_mem, (hA _).some_mem⟩

/-- the bounds apply to a concrete machine computation: PLANCK15, redshift 2, single precision -/
example : ∃ r ∈ Rounded.distance_modulus_to_z f64 (binary 24 (by norm_num)) (2 ^ (-20:ℤ)) 511 2 0.3075 (-1.0) 0.0 0.6774,
    |r - FlatWcdm.distance_modulus_to_z 2 0.3075 (-1.0) 0.0 0.6774|
      ≤ 1.31e-3 + 1.95e-6 * max 5 |FlatWcdm.distance_modulus_to_z 2 0.3075 (-1.0) 0.0 0.6774| := by
  obtain ⟨r, hr⟩ := (C117_results_exist (d := 511) (z := 2) (Om0 := 0.3075) (w0 := -1.0) (wa := 0.0) (h := 0.6774) float32_ieee.machine
    (binary_nonempty 24 _) (binary_nonempty 53 _) (by norm_num) le_rfl).1
  exact ⟨r, hr, (C117_float32 float32_ieee ordinary_planck15 le_rfl).2.2.1 r hr⟩

/-- the same in double precision -/
example : ∃ r ∈ Rounded.lookback_to_z f64 f64 (2 ^ (-50:ℤ)) 511 2 0.3075 (-1.0) 0.0 0.6774,
    |r - FlatWcdm.lookback_to_z 2 0.3075 (-1.0) 0.0 0.6774| ≤ 6.1e-13 * FlatWcdm.lookback_to_z 2 0.3075 (-1.0) 0.0 0.6774 := by
  obtain ⟨r, hr⟩ := (C117_results_exist (d := 511) (z := 2) (Om0 := 0.3075) (w0 := -1.0) (wa := 0.0) (h := 0.6774) float64_ieee.machine
    (binary_nonempty 53 _) (binary_nonempty 53 _) (by norm_num) le_rfl).2
  exact ⟨r, hr, (C117_float64 float64_ieee ordinary_planck15 le_rfl).2.2.2.1 r hr⟩

end Dsps.Props
