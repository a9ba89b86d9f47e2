import Verif.Lemmas.NdTrapz

/-! The cosmology functions on redshifts of any shape. -/
namespace Dsps.NdCosmo
open Nd Py Dsps.NdSed

variable {n m M q : ℕ} {pre : List ℕ} {Om0 w0 wa h : ℝ}

/-! ### A scalar redshift -/

theorem comoving_0 {z : Arr ℝ} {x : ℝ} (hz : Is0 z x) :
    Ok (comoving_distance_to_z z Om0 w0 wa h) (Is0 · (FlatWcdm.comoving_distance_to_z x Om0 w0 wa h)) := by
  have ht : Is1 (linspace 0 z 254) (Jnp.linspace 0 x 254) := linspace_0 0 hz
  have hi := (ht.map fun z => FlatWcdm.Ez z Om0 w0 wa).map (1 / ·)
  exact (trapezoid_1 (M := 255) hi ht).bind fun d hd => .pure (hd.map _)

theorem luminosity_0 {z : Arr ℝ} {x : ℝ} (hz : Is0 z x) :
    Ok (luminosity_distance_to_z z Om0 w0 wa h) (Is0 · (FlatWcdm.luminosity_distance_to_z x Om0 w0 wa h)) :=
  (comoving_0 hz).bind fun _ hd => map2_00 hd (hz.map _)

theorem angular_0 {z : Arr ℝ} {x : ℝ} (hz : Is0 z x) :
    Ok (angular_diameter_distance_to_z z Om0 w0 wa h) (Is0 · (FlatWcdm.angular_diameter_distance_to_z x Om0 w0 wa h)) :=
  (comoving_0 hz).bind fun _ hd => map2_00 hd (hz.map _)

theorem modulus_0 {z : Arr ℝ} {x : ℝ} (hz : Is0 z x) :
    Ok (distance_modulus_to_z z Om0 w0 wa h) (Is0 · (FlatWcdm.distance_modulus_to_z x Om0 w0 wa h)) :=
  (luminosity_0 hz).bind fun _ hd => .pure (hd.map _)

theorem lookback_0 {z : Arr ℝ} {x : ℝ} (hz : Is0 z x) :
    Ok (lookback_to_z z Om0 w0 wa h) (Is0 · (FlatWcdm.lookback_to_z x Om0 w0 wa h)) := by
  have ht : Is1 (linspace 0 z 510) (Jnp.linspace 0 x 510) := linspace_0 0 hz
  have hi := (ht.map fun z => FlatWcdm.Ez z Om0 w0 wa).map (1 / ·)
  refine (map2_11 hi (ht.map (1 + ·))).bind fun y hy => ?_
  exact (trapezoid_1 (M := 511) hy ht).bind fun r hr =>
    map2_00 (((Is0.scal 0.0).map fun z => FlatWcdm.Ez z Om0 w0 wa).map _) hr

theorem age_kern_0 {z : Arr ℝ} {x : ℝ} (hz : Is0 z x) :
    Ok (age_at_z_kern z Om0 w0 wa h) (Is0 · (FlatWcdm.age_at_z_kern x Om0 w0 wa h)) :=
  (lookback_0 hz).bind fun _ hd => map2_00 (Is0.scal _) hd

theorem Om_0 {z : Arr ℝ} {x : ℝ} (hz : Is0 z x) : Ok (Om_at_z z Om0 w0 wa) (Is0 · (FlatWcdm.Om_at_z x Om0 w0 wa)) := by
  have hE := hz.map fun z => FlatWcdm.Ez z Om0 w0 wa
  exact (map2_00 (hz.map _) hE).bind fun a ha => map2_00 ha hE

theorem volume_0 {z : Arr ℝ} {x : ℝ} (hz : Is0 z x) :
    Ok (differential_comoving_volume_at_z z Om0 w0 wa h)
      (Is0 · (FlatWcdm.differential_comoving_volume_at_z x Om0 w0 wa h)) := by
  refine (angular_0 hz).bind fun d hd => (map2_00 (hz.map _) hd).bind fun p hp => ?_
  exact map2_00 (hp.map _) (hz.map _)

/-! ### An array of redshifts -/

theorem linspace_zero (x : ℝ) (n : ℕ) (i : Fin (n + 2)) : Jnp.linspace 0 x n i = x * ((i : ℝ) / ((n : ℝ) + 1)) := by
  unfold Jnp.linspace
  split_ifs with e
  · subst e
    have : (n : ℝ) + 1 ≠ 0 := by positivity
    simp [div_self this]
  · ring

theorem IsArr.congr {a : Arr ℝ} {s : List ℕ} {g g' : List ℕ → ℝ} (ha : IsArr a s g)
    (e : ∀ t, List.Forall₂ (· < ·) t s → g t = g' t) : IsArr a s g' := ⟨ha.1, fun t ht => (ha.2 t ht).trans (e t ht)⟩

/-- the row of the table an array redshift produces: fraction `i/(n+1)` of every redshift -/
theorem trapz_table_rows {z : Arr ℝ} {u : List ℕ → Fin (q + 1) → ℝ} {y : Arr ℝ} {F : ℝ → ℝ} (hz : IsRows z pre u)
    (hy : ∀ {T : Arr ℝ} {s : List ℕ} {v : List ℕ → Fin (q + 1) → ℝ}, T = linspace 0 z n → IsRows T s v →
      IsRows y s fun idx j => F (v idx j)) :
    Ok (trapz (linspace 0 z n) y) (IsArr · ((n + 2) :: pre) fun t =>
      Utils.trapz (fun j => u t.tail j * ((t.headD 0 : ℝ) / ((n : ℝ) + 1)))
        fun j => F (u t.tail j * ((t.headD 0 : ℝ) / ((n : ℝ) + 1)))) := by
  have ht := linspace_rows (n := n) 0 hz
  refine (trapezoid_rows (hy rfl ht) ht).mono fun r hr => IsArr.congr hr fun t htt => ?_
  cases htt with
  | cons h1 h2 =>
    simp only [List.headD_cons, List.tail_cons, dif_pos h1, linspace_zero, Utils.trapz]

theorem comoving_rows {z : Arr ℝ} {u : List ℕ → Fin (q + 1) → ℝ} (hz : IsRows z pre u) :
    Ok (comoving_distance_to_z z Om0 w0 wa h) (IsArr · (256 :: pre) fun t =>
      Utils.trapz (fun j => u t.tail j * ((t.headD 0 : ℝ) / 255))
        (fun j => 1 / FlatWcdm.Ez (u t.tail j * ((t.headD 0 : ℝ) / 255)) Om0 w0 wa) * FlatWcdm.C_SPEED * 1e-5 / h) := by
  have := trapz_table_rows (n := 254) (y := map (1 / ·) (Ez (linspace 0 z 254) Om0 w0 wa))
    (F := fun z => 1 / FlatWcdm.Ez z Om0 w0 wa) hz (fun {T s v} e hT => by
      subst e; exact (hT.map fun z => FlatWcdm.Ez z Om0 w0 wa).map (1 / ·))
  refine this.bind fun d hd => .pure ?_
  have e : ((254 : ℕ) : ℝ) + 1 = 255 := by norm_num
  simp only [e] at hd
  exact hd.map _

theorem lookback_rows {z : Arr ℝ} {u : List ℕ → Fin (q + 1) → ℝ} (hz : IsRows z pre u) :
    Ok (lookback_to_z z Om0 w0 wa h) (IsArr · (512 :: pre) fun t =>
      FlatWcdm.hubble_time 0.0 Om0 w0 wa h * Utils.trapz (fun j => u t.tail j * ((t.headD 0 : ℝ) / 511))
        (fun j => 1 / FlatWcdm.Ez (u t.tail j * ((t.headD 0 : ℝ) / 511)) Om0 w0 wa /
          (1 + u t.tail j * ((t.headD 0 : ℝ) / 511)))) := by
  have ht := linspace_rows (n := 510) 0 hz
  have hmm := map2_rr (f := (· / ·)) ((ht.map fun z => FlatWcdm.Ez z Om0 w0 wa).map (1 / ·)) (ht.map (1 + ·))
  obtain ⟨y, ey, -⟩ := hmm
  refine Ok.bind (Q := (· = y)) ⟨y, ey, rfl⟩ fun y' e' => ?_
  subst e'
  have := trapz_table_rows (n := 510) (y := y')
    (F := fun z => 1 / FlatWcdm.Ez z Om0 w0 wa / (1 + z)) hz (fun {T s v} e hT => by
      subst e
      obtain ⟨y2, e2, h2⟩ := map2_rr (f := (· / ·)) ((hT.map fun z => FlatWcdm.Ez z Om0 w0 wa).map (1 / ·)) (hT.map (1 + ·))
      have : y2 = y' := Except.ok.inj (e2.symm.trans ey)
      rwa [this] at h2)
  refine this.bind fun d hd => ?_
  have e : ((510 : ℕ) : ℝ) + 1 = 511 := by norm_num
  simp only [e] at hd
  exact map2_0a (((Is0.scal 0.0).map fun z => FlatWcdm.Ez z Om0 w0 wa).map _) hd

theorem is1_mono {a : Arr ℝ} {g : List ℕ → ℝ} {f : Fin n → ℝ} (ha : IsArr a [n] g) (e : ∀ i : Fin n, g [i.1] = f i) :
    Is1 a f := ha.is1.congr e

theorem bc_table {N : ℕ} (hN : N ≠ 1) : (M = 1 ∨ M = N → bcShape [N] [M] = .ok [N]) ∧
    (M ≠ 1 → M ≠ N → Raises (bcShape [N] [M])) := by
  constructor
  · rintro (rfl | rfl) <;> simp [bcShape, bcRev, Except.map]
  · intro h1 h2
    exact ⟨.typeError, by simp [bcShape, bcRev, Except.map, h1, h2, Ne.symm h2, hN]⟩

theorem comoving_shape {z : Arr ℝ} (hz : z.shape = pre ++ [q + 1]) :
    Ok (comoving_distance_to_z z Om0 w0 wa h) fun r => r.shape = 256 :: pre :=
  (comoving_rows (u := fun idx j => z.dat (idx ++ [j.1])) ⟨hz, fun _ _ _ => rfl⟩).mono fun _ h => h.1

theorem lookback_shape {z : Arr ℝ} (hz : z.shape = pre ++ [q + 1]) :
    Ok (lookback_to_z z Om0 w0 wa h) fun r => r.shape = 512 :: pre :=
  (lookback_rows (u := fun idx j => z.dat (idx ++ [j.1])) ⟨hz, fun _ _ _ => rfl⟩).mono fun _ h => h.1

theorem scaled_shape {f : ℝ → ℝ → ℝ} {z : Arr ℝ} (hz : z.shape = [q + 1]) :
    (q + 1 = 1 ∨ q + 1 = 256 →
      Ok (comoving_distance_to_z z Om0 w0 wa h >>= fun d => map2 f d (map (1 + ·) z)) fun r => r.shape = [256]) ∧
    (q + 1 ≠ 1 → q + 1 ≠ 256 →
      Raises (comoving_distance_to_z z Om0 w0 wa h >>= fun d => map2 f d (map (1 + ·) z))) := by
  have hc := comoving_shape (Om0 := Om0) (w0 := w0) (wa := wa) (h := h) (pre := []) hz
  constructor
  · intro hq
    refine hc.bind fun d hd => ⟨_, map2_shape ?_, rfl⟩
    rw [hd]
    exact (hz ▸ (bc_table (by norm_num)).1 hq : bcShape [256] z.shape = _)
  · intro h1 h2
    refine hc.raises fun d hd => map2_raises ?_
    rw [hd]
    exact (hz ▸ (bc_table (by norm_num)).2 h1 h2 : Raises (bcShape [256] z.shape))

end Dsps.NdCosmo
