import Verif.Lemmas.NdCosmo
import Verif.Props.Cosmology

/-!
C121: array shapes in the cosmology functions.  `Nd.Arr`, `Is0`, `Is1`, `Raises`, `HasShape` as in `Verif/Nd.lean`; the
functions of `Dsps.NdCosmo` are those of `/repo/dsps/cosmology/flat_wcdm.py` under numpy's shape rules; those of
`Dsps.FlatWcdm` are the scalar functions the rest of the development is about.
-/
namespace Dsps.Props
open Nd Py Dsps.NdCosmo Dsps.NdSed Spec

section
variable {n q : ℕ} {Om0 w0 wa h : ℝ}

/-- C121: every distance and time function maps a scalar redshift to a scalar. -/
theorem C121_scalar {z : Arr ℝ} {x : ℝ} (hz : Is0 z x) :
    (∃ r, comoving_distance_to_z z Om0 w0 wa h = .ok r ∧ Is0 r (FlatWcdm.comoving_distance_to_z x Om0 w0 wa h)) ∧
    (∃ r, luminosity_distance_to_z z Om0 w0 wa h = .ok r ∧ Is0 r (FlatWcdm.luminosity_distance_to_z x Om0 w0 wa h)) ∧
    (∃ r, angular_diameter_distance_to_z z Om0 w0 wa h = .ok r ∧
      Is0 r (FlatWcdm.angular_diameter_distance_to_z x Om0 w0 wa h)) ∧
    (∃ r, distance_modulus_to_z z Om0 w0 wa h = .ok r ∧ Is0 r (FlatWcdm.distance_modulus_to_z x Om0 w0 wa h)) ∧
    (∃ r, lookback_to_z z Om0 w0 wa h = .ok r ∧ Is0 r (FlatWcdm.lookback_to_z x Om0 w0 wa h)) ∧
    (∃ r, differential_comoving_volume_at_z z Om0 w0 wa h = .ok r ∧
      Is0 r (FlatWcdm.differential_comoving_volume_at_z x Om0 w0 wa h)) :=
  ⟨comoving_0 hz, luminosity_0 hz, angular_0 hz, modulus_0 hz, lookback_0 hz, volume_0 hz⟩

/-- C121: `age_at_z` turns a scalar redshift into an array of one age, and treats an array of redshifts element by element. -/
theorem C121_age_at_z :
    (∀ {z : Arr ℝ} {x : ℝ}, Is0 z x → ∃ r, age_at_z z Om0 w0 wa h = .ok r ∧
      Is1 r fun _ : Fin 1 => FlatWcdm.age_at_z0 Om0 w0 wa h - FlatWcdm.lookback_to_z x Om0 w0 wa h) ∧
    (∀ {z : Arr ℝ} {x : Fin (n + 1) → ℝ}, Is1 z x → ∃ r, age_at_z z Om0 w0 wa h = .ok r ∧
      Is1 r fun i => FlatWcdm.age_at_z0 Om0 w0 wa h - FlatWcdm.lookback_to_z (x i) Om0 w0 wa h) := by
  constructor
  · intro z x hz
    have : Is1 (atleast1d z) fun _ : Fin (0 + 1) => x := by
      refine ⟨by simp [atleast1d, hz.1], fun i => ?_⟩
      simp [atleast1d, hz.1, hz.2]
    exact vmap_1_0 (g := fun x => FlatWcdm.age_at_z_kern x Om0 w0 wa h) this fun u s hs => age_kern_0 hs
  · intro z x hz
    have e : atleast1d z = z := by simp [atleast1d, hz.1]
    unfold age_at_z
    rw [e]
    exact vmap_1_0 (g := fun x => FlatWcdm.age_at_z_kern x Om0 w0 wa h) hz fun u s hs => age_kern_0 hs

/-- C121: the vectorised functions treat a one-dimensional array of redshifts element by element. -/
theorem C121_vectorised {z : Arr ℝ} {x : Fin (n + 1) → ℝ} (hz : Is1 z x) :
    (∃ r, comoving_distance z Om0 w0 wa h = .ok r ∧ Is1 r fun i => FlatWcdm.comoving_distance_to_z (x i) Om0 w0 wa h) ∧
    (∃ r, luminosity_distance z Om0 w0 wa h = .ok r ∧ Is1 r fun i => FlatWcdm.luminosity_distance_to_z (x i) Om0 w0 wa h) ∧
    (∃ r, angular_diameter_distance z Om0 w0 wa h = .ok r ∧
      Is1 r fun i => FlatWcdm.angular_diameter_distance_to_z (x i) Om0 w0 wa h) ∧
    (∃ r, distance_modulus z Om0 w0 wa h = .ok r ∧ Is1 r fun i => FlatWcdm.distance_modulus_to_z (x i) Om0 w0 wa h) ∧
    (∃ r, lookback_time z Om0 w0 wa h = .ok r ∧ Is1 r fun i => FlatWcdm.lookback_to_z (x i) Om0 w0 wa h) ∧
    (∃ r, differential_comoving_volume z Om0 w0 wa h = .ok r ∧
      Is1 r fun i => FlatWcdm.differential_comoving_volume_at_z (x i) Om0 w0 wa h) :=
  ⟨vmap_1_0 (g := fun x => FlatWcdm.comoving_distance_to_z x Om0 w0 wa h) hz fun _ _ hs => comoving_0 hs, vmap_1_0 (g := fun x => FlatWcdm.luminosity_distance_to_z x Om0 w0 wa h) hz fun _ _ hs => luminosity_0 hs,
   vmap_1_0 (g := fun x => FlatWcdm.angular_diameter_distance_to_z x Om0 w0 wa h) hz fun _ _ hs => angular_0 hs, vmap_1_0 (g := fun x => FlatWcdm.distance_modulus_to_z x Om0 w0 wa h) hz fun _ _ hs => modulus_0 hs,
   vmap_1_0 (g := fun x => FlatWcdm.lookback_to_z x Om0 w0 wa h) hz fun _ _ hs => lookback_0 hs, vmap_1_0 (g := fun x => FlatWcdm.differential_comoving_volume_at_z x Om0 w0 wa h) hz fun _ _ hs => volume_0 hs⟩

/-- C121: and they raise on a scalar redshift. -/
theorem C121_vectorised_scalar_raises {z : Arr ℝ} (hz : z.shape = []) :
    Raises (comoving_distance z Om0 w0 wa h) ∧ Raises (luminosity_distance z Om0 w0 wa h) ∧
    Raises (angular_diameter_distance z Om0 w0 wa h) ∧ Raises (distance_modulus z Om0 w0 wa h) ∧
    Raises (lookback_time z Om0 w0 wa h) ∧ Raises (differential_comoving_volume z Om0 w0 wa h) :=
  ⟨vmap_scalar hz, vmap_scalar hz, vmap_scalar hz, vmap_scalar hz, vmap_scalar hz, vmap_scalar hz⟩

/-- C121: `virial_dynamical_time` raises on a scalar redshift — its docstring announces a float — and treats a
one-dimensional array element by element. -/
theorem C121_virial_time :
    (∀ {z : Arr ℝ}, z.shape = [] → Raises (virial_dynamical_time z Om0 w0 wa h)) ∧
    (∀ {z : Arr ℝ} {x : Fin (n + 1) → ℝ}, Is1 z x → ∃ r, virial_dynamical_time z Om0 w0 wa h = .ok r ∧
      Is1 r (FlatWcdm.virial_dynamical_time x Om0 w0 wa h)) := by
  constructor
  · intro z hz
    exact Raises.bind (Raises.bind (vmap_scalar hz))
  · intro z x hz
    refine Ok.bind (Q := (Is1 · (FlatWcdm.delta_vir x Om0 w0 wa))) ?_ fun d hd => ?_
    · exact (vmap_1_0 hz fun _ _ hs => Om_0 hs).bind fun o ho => .pure ((ho.map (· - 1.0)).map _)
    · exact map2_11 (((hz.map fun z => FlatWcdm.Ez z Om0 w0 wa).map _).map _) (hd.map _)

/-- C121: `rho_crit` acts element by element on redshifts of every shape. -/
theorem C121_rho_crit (z : Arr ℝ) :
    ∃ r, rho_crit z Om0 w0 wa h = .ok r ∧ r.shape = z.shape ∧
      ∀ idx, r.dat idx = FlatWcdm.rho_crit (z.dat idx) Om0 w0 wa h :=
  ⟨_, rfl, rfl, fun _ => rfl⟩

/-! ### Arrays given to the scalar functions -/

/-- C121: given an array of redshifts, `comoving_distance_to_z` does not return one distance per redshift: it returns 256
numbers, the `i`-th being the integral of `1/E` *from one redshift of the array to the next*, all of them scaled by
`i/255`. -/
theorem C121_comoving_array {z : Arr ℝ} {x : Fin (q + 1) → ℝ} (hz : Is1 z x) :
    ∃ r, comoving_distance_to_z z Om0 w0 wa h = .ok r ∧ Is1 r fun i : Fin 256 =>
      Utils.trapz (fun j => x j * ((i : ℝ) / 255)) (fun j => 1 / FlatWcdm.Ez (x j * ((i : ℝ) / 255)) Om0 w0 wa)
        * FlatWcdm.C_SPEED * 1e-5 / h :=
  (comoving_rows (is1_rows hz)).mono fun _ hr => is1_mono hr fun _ => rfl

/-- C121: in particular an array of one redshift gives 256 zeros. -/
theorem C121_comoving_one_element {z : Arr ℝ} (hz : z.shape = [1]) :
    ∃ r, comoving_distance_to_z z Om0 w0 wa h = .ok r ∧ Is1 r fun _ : Fin 256 => (0 : ℝ) := by
  obtain ⟨r, e, hr⟩ := C121_comoving_array (q := 0) (x := fun i => z.dat [i.1]) (Om0 := Om0) (w0 := w0) (wa := wa) (h := h)
    ⟨hz, fun _ => rfl⟩
  refine ⟨r, e, hr.congr fun i => ?_⟩
  simp [Utils.trapz, Jnp.trapezoid, Jnp.sum]

/-- C121: with exactly 256 redshifts the result has the shape a user expects, and is wrong in silence: its first entry is
zero whatever the first redshift is. -/
theorem C121_comoving_256_wrong {z : Arr ℝ} {x : Fin 256 → ℝ} (hz : Is1 z x) (hx : 0 < x 0) (hOm : PhysicalOm Om0)
    (hh : 0 < h) :
    ∃ (r : Arr ℝ) (y : Fin 256 → ℝ), comoving_distance_to_z z Om0 w0 wa h = .ok r ∧ Is1 r y ∧ y 0 = 0 ∧
      y 0 < FlatWcdm.comoving_distance_to_z (x 0) Om0 w0 wa h := by
  obtain ⟨r, e, hr⟩ := C121_comoving_array (q := 255) (Om0 := Om0) (w0 := w0) (wa := wa) (h := h) hz
  have h0 : Utils.trapz (fun j => x j * (((0 : Fin 256) : ℝ) / 255))
      (fun j => 1 / FlatWcdm.Ez (x j * (((0 : Fin 256) : ℝ) / 255)) Om0 w0 wa) * FlatWcdm.C_SPEED * 1e-5 / h = 0 := by
    simp [Utils.trapz, Jnp.trapezoid, Jnp.sum, Jnp.diff, Jnp.tail, Jnp.init]
  refine ⟨r, _, e, hr, h0, ?_⟩
  exact lt_of_eq_of_lt h0 (C49_positive hx hOm hh w0 wa).1

/-- C121: `luminosity_distance_to_z`, `angular_diameter_distance_to_z`, `distance_modulus_to_z` and
`differential_comoving_volume_at_z` raise on an array of redshifts, except on an array of one or of 256 redshifts, where
they return 256 numbers. -/
theorem C121_scaled_array {z : Arr ℝ} (hz : z.shape = [q + 1]) :
    (q + 1 = 1 ∨ q + 1 = 256 →
      HasShape (luminosity_distance_to_z z Om0 w0 wa h) [256] ∧
      HasShape (angular_diameter_distance_to_z z Om0 w0 wa h) [256] ∧
      HasShape (distance_modulus_to_z z Om0 w0 wa h) [256] ∧
      HasShape (differential_comoving_volume_at_z z Om0 w0 wa h) [256]) ∧
    (q + 1 ≠ 1 → q + 1 ≠ 256 →
      Raises (luminosity_distance_to_z z Om0 w0 wa h) ∧ Raises (angular_diameter_distance_to_z z Om0 w0 wa h) ∧
      Raises (distance_modulus_to_z z Om0 w0 wa h) ∧ Raises (differential_comoving_volume_at_z z Om0 w0 wa h)) := by
  constructor
  · intro hq
    have hl : Ok (luminosity_distance_to_z z Om0 w0 wa h) fun r => r.shape = [256] := (scaled_shape hz).1 hq
    have ha : Ok (angular_diameter_distance_to_z z Om0 w0 wa h) fun r => r.shape = [256] := (scaled_shape hz).1 hq
    refine ⟨hl, ha, hl.bind fun d hd => .pure hd, ha.bind fun d hd => ?_⟩
    have hb : bcShape [256] [q + 1] = .ok [256] := (bc_table (by norm_num)).1 hq
    have hb' : bcShape [q + 1] [256] = .ok [256] := by
      rcases hq with e | e <;> rw [e] <;> simp [bcShape, bcRev, Except.map]
    refine Ok.bind (Q := fun p => p.shape = [256]) ⟨_, map2_shape (s := [256]) ?_, rfl⟩ fun p hp =>
      ⟨_, map2_shape (s := [256]) ?_, rfl⟩
    · rw [hd]; exact (hz ▸ hb' : bcShape z.shape [256] = _)
    · show bcShape p.shape z.shape = _; rw [hp, hz]; exact hb
  · intro h1 h2
    have hl : Raises (luminosity_distance_to_z z Om0 w0 wa h) := (scaled_shape hz).2 h1 h2
    have ha : Raises (angular_diameter_distance_to_z z Om0 w0 wa h) := (scaled_shape hz).2 h1 h2
    exact ⟨hl, ha, Raises.bind hl, Raises.bind ha⟩

/-- C121: given an array of redshifts, `lookback_to_z` returns 512 numbers that are not the lookback times; for one redshift
they are all zero. -/
theorem C121_lookback_array {z : Arr ℝ} {x : Fin (q + 1) → ℝ} (hz : Is1 z x) :
    ∃ r, lookback_to_z z Om0 w0 wa h = .ok r ∧ (Is1 r fun i : Fin 512 =>
      FlatWcdm.hubble_time 0.0 Om0 w0 wa h * Utils.trapz (fun j => x j * ((i : ℝ) / 511))
        (fun j => 1 / FlatWcdm.Ez (x j * ((i : ℝ) / 511)) Om0 w0 wa / (1 + x j * ((i : ℝ) / 511)))) ∧
      (q = 0 → Is1 r fun _ : Fin 512 => (0 : ℝ)) := by
  obtain ⟨r, e, hr⟩ := lookback_rows (Om0 := Om0) (w0 := w0) (wa := wa) (h := h) (is1_rows hz)
  refine ⟨r, e, is1_mono hr fun _ => rfl, ?_⟩
  rintro rfl
  refine is1_mono hr fun i => ?_
  simp [Utils.trapz, Jnp.trapezoid, Jnp.sum]

/-- C121: more dimensions change nothing: the last axis is integrated away and an axis of 256 (512) is put first; the
vectorised functions and `age_at_z` keep their first axis only. -/
theorem C121_more_dimensions {z : Arr ℝ} {p : ℕ} {pre : List ℕ} :
    (z.shape = pre ++ [q + 1] → HasShape (comoving_distance_to_z z Om0 w0 wa h) (256 :: pre) ∧
      HasShape (lookback_to_z z Om0 w0 wa h) (512 :: pre)) ∧
    (z.shape = p :: (pre ++ [q + 1]) → HasShape (comoving_distance z Om0 w0 wa h) (p :: 256 :: pre) ∧
      HasShape (lookback_time z Om0 w0 wa h) (p :: 512 :: pre) ∧
      HasShape (age_at_z z Om0 w0 wa h) (p :: 512 :: pre)) := by
  refine ⟨fun hz => ⟨comoving_shape hz, lookback_shape hz⟩, fun hz => ?_⟩
  have key : ∀ {f : Arr ℝ → Except PyErr (Arr ℝ)} {s : List ℕ},
      Ok (f (row z (pre ++ [q + 1]) 0)) (fun r => r.shape = s) → HasShape (vmap f z) (p :: s) := by
    intro f s hf
    obtain ⟨r, e, hr⟩ := hf
    exact ⟨_, vmap_eq hz e, by simp [hr]⟩
  refine ⟨key (comoving_shape rfl), key (lookback_shape rfl), ?_⟩
  have e : atleast1d z = z := by simp [atleast1d, hz]
  unfold age_at_z
  rw [e]
  refine key (Ok.bind (lookback_shape rfl) fun d hd => ⟨_, map2_shape (s := 512 :: pre) ?_, rfl⟩)
  simp [scal, hd]

end

/-! ### Concrete cases -/

/-- the redshifts 0.5, 1.5, 2.5 -/
noncomputable def exZ : Arr ℝ := ⟨[3], fun i => i.headD 0 + 0.5⟩
theorem exZ_is : Is1 exZ (fun i : Fin (2 + 1) => (i : ℝ) + 0.5) := ⟨rfl, fun _ => rfl⟩

/-- three redshifts: the vectorised modulus returns three numbers, the scalar one raises, the scalar comoving distance returns
256 numbers -/
example : HasShape (distance_modulus exZ 0.3 (-1) 0 0.7) [3] ∧ Raises (distance_modulus_to_z exZ 0.3 (-1) 0 0.7) ∧
    HasShape (comoving_distance_to_z exZ 0.3 (-1) 0 0.7) [256] := by
  obtain ⟨-, -, -, ⟨r, e, hr⟩, -⟩ := C121_vectorised (Om0 := 0.3) (w0 := -1) (wa := 0) (h := 0.7) exZ_is
  refine ⟨⟨r, e, hr.1⟩, ((C121_scaled_array (q := 2) rfl).2 (by norm_num) (by norm_num)).2.2.1, ?_⟩
  obtain ⟨r, e, hr⟩ := C121_comoving_array (Om0 := 0.3) (w0 := -1) (wa := 0) (h := 0.7) exZ_is
  exact ⟨r, e, hr.1⟩

/-- a grid of 256 redshifts: the first comoving distance comes out as zero although `z = 0.1` -/
example : ∃ (r : Arr ℝ) (y : Fin 256 → ℝ), comoving_distance_to_z ⟨[256], fun i => i.headD 0 + 0.1⟩ 0.3 (-1) 0 0.7 = .ok r ∧ Is1 r y ∧
    y 0 = 0 := by
  obtain ⟨r, y, e, h1, h2, -⟩ := C121_comoving_256_wrong (z := ⟨[256], fun i => i.headD 0 + 0.1⟩)
    (x := fun i => (i : ℝ) + 0.1) (Om0 := 0.3) (w0 := -1) (wa := 0) (h := 0.7) ⟨rfl, fun _ => rfl⟩ (by norm_num)
    ⟨by norm_num, by norm_num⟩ (by norm_num)
  exact ⟨r, y, e, h1, h2⟩

/-- `virial_dynamical_time(1.0, ...)` raises -/
example : Raises (virial_dynamical_time (scal 1.0) 0.3 (-1) 0 0.7) := (C121_virial_time (n := 0)).1 rfl

/-- one redshift as a scalar: every `_to_z` function returns one number, the vectorised names raise -/
example : HasShape (luminosity_distance_to_z (scal 0.5) 0.3 (-1) 0 0.7) [] ∧ Raises (luminosity_distance (scal 0.5) 0.3 (-1) 0 0.7) := by
  obtain ⟨-, ⟨r, e, hr⟩, -⟩ := C121_scalar (Om0 := 0.3) (w0 := -1) (wa := 0) (h := 0.7) (Is0.scal 0.5)
  exact ⟨⟨r, e, hr.1⟩, (C121_vectorised_scalar_raises rfl).2.1⟩

/-- one redshift in an array of length one: 256 zeros -/
example : ∃ r, comoving_distance_to_z ⟨[1], fun _ => 0.5⟩ 0.3 (-1) 0 0.7 = .ok r ∧ Is1 r fun _ : Fin 256 => (0 : ℝ) :=
  C121_comoving_one_element rfl

/-- three redshifts given to the scalar look-back function: 512 numbers; a 2-by-3 table given to the vectorised one: (2, 512) -/
example : HasShape (lookback_to_z exZ 0.3 (-1) 0 0.7) [512] ∧
    HasShape (lookback_time ⟨[2, 3], fun _ => 0.5⟩ 0.3 (-1) 0 0.7) [2, 512] := by
  obtain ⟨r, e, hr, -⟩ := C121_lookback_array (Om0 := 0.3) (w0 := -1) (wa := 0) (h := 0.7) exZ_is
  exact ⟨⟨r, e, hr.1⟩, ((C121_more_dimensions (q := 2) (p := 2) (pre := [])).2 rfl).2.1⟩

end Dsps.Props
