import Verif.Lemmas.NdCosmo

/-! Photometry on arrays of any shape. -/
namespace Dsps.NdPhot
open Nd Py Dsps.NdSed Dsps.NdCosmo

/-! ### `vmap` over the leading axis -/

section
variable {n m p q r : ℕ}

theorem vmap_1_3 {f : Arr ℝ → Except PyErr (Arr ℝ)} {a : Arr ℝ} {x : Fin (n + 1) → ℝ} {g : ℝ → Fin m → Fin p → Fin q → ℝ}
    (ha : Is1 a x) (hf : ∀ u s, Is0 u s → Ok (f u) (Is3 · (g s))) : Ok (vmap f a) (Is4 · fun i => g (x i)) := by
  have hra : ∀ i : Fin (n + 1), Is0 (row a [] i) (x i) := fun i => ⟨rfl, ha.2 i⟩
  obtain ⟨r0, e0, h0⟩ := hf _ _ (hra 0)
  refine ⟨_, vmap_eq ha.1 e0, by simp [h0.1], fun i j l t => ?_⟩
  obtain ⟨r, e, h⟩ := hf _ _ (hra i)
  simp only [e, h.2]

theorem vmap_2_1 {f : Arr ℝ → Except PyErr (Arr ℝ)} {a : Arr ℝ} {x : Fin (n + 1) → Fin m → ℝ} {g : (Fin m → ℝ) → Fin p → ℝ}
    (ha : Is2 a x) (hf : ∀ u s, Is1 u s → Ok (f u) (Is1 · (g s))) : Ok (vmap f a) (Is2 · fun i => g (x i)) := by
  have hra : ∀ i : Fin (n + 1), Is1 (row a [m] i) (x i) := fun i => ⟨rfl, fun j => ha.2 i j⟩
  obtain ⟨r0, e0, h0⟩ := hf _ _ (hra 0)
  refine ⟨_, vmap_eq ha.1 e0, by simp [h0.1], fun i j => ?_⟩
  obtain ⟨r, e, h⟩ := hf _ _ (hra i)
  simp only [e, h.2]

theorem vmap_3_2 {f : Arr ℝ → Except PyErr (Arr ℝ)} {a : Arr ℝ} {x : Fin (n + 1) → Fin m → Fin p → ℝ}
    {g : (Fin m → Fin p → ℝ) → Fin q → Fin r → ℝ} (ha : Is3 a x) (hf : ∀ u s, Is2 u s → Ok (f u) (Is2 · (g s))) :
    Ok (vmap f a) (Is3 · fun i => g (x i)) := by
  have hra : ∀ i : Fin (n + 1), Is2 (row a [m, p] i) (x i) := fun i => ⟨rfl, fun j l => ha.2 i j l⟩
  obtain ⟨r0, e0, h0⟩ := hf _ _ (hra 0)
  refine ⟨_, vmap_eq ha.1 e0, by simp [h0.1], fun i j l => ?_⟩
  obtain ⟨r, e, h⟩ := hf _ _ (hra i)
  simp only [e, h.2]

theorem vmapTwo_2_0 {f : Arr ℝ → Arr ℝ → Except PyErr (Arr ℝ)} {a b : Arr ℝ} {x y : Fin (n + 1) → Fin m → ℝ}
    {g : (Fin m → ℝ) → (Fin m → ℝ) → ℝ} (ha : Is2 a x) (hb : Is2 b y)
    (hf : ∀ u v s t, Is1 u s → Is1 v t → Ok (f u v) (Is0 · (g s t))) :
    Ok (vmapTwo f a b) (Is1 · fun i => g (x i) (y i)) := by
  have hra : ∀ i : Fin (n + 1), Is1 (row a [m] i) (x i) := fun i => ⟨rfl, fun j => ha.2 i j⟩
  have hrb : ∀ i : Fin (n + 1), Is1 (row b [m] i) (y i) := fun i => ⟨rfl, fun j => hb.2 i j⟩
  obtain ⟨r0, e0, h0⟩ := hf _ _ _ _ (hra 0) (hrb 0)
  refine ⟨_, vmapTwo_eq ha.1 hb.1 e0, by simp [h0.1], fun i => ?_⟩
  obtain ⟨r, e, h⟩ := hf _ _ _ _ (hra i) (hrb i)
  simp only [e, h.2]

theorem vmapTwo_raises {f : Arr ℝ → Arr ℝ → Except PyErr (Arr ℝ)} {a b : Arr ℝ} (hf : ∀ u v, Raises (f u v)) :
    Raises (vmapTwo f a b) := by
  unfold vmapTwo
  split
  · split_ifs
    · obtain ⟨e, he⟩ := hf (row a _ 0) (row b _ 0)
      rw [he]
      exact ⟨_, rfl⟩
    · exact ⟨_, rfl⟩
  · exact ⟨_, rfl⟩

theorem vmapTwo_mismatch {f : Arr ℝ → Arr ℝ → Except PyErr (Arr ℝ)} {a b : Arr ℝ} {d e : ℕ} {s t : List ℕ}
    (ha : a.shape = d :: s) (hb : b.shape = e :: t) (h : d ≠ e) : Raises (vmapTwo f a b) := by
  simp [vmapTwo, ha, hb, h, Raises]

theorem vmap_raises_all {f : Arr ℝ → Except PyErr (Arr ℝ)} {a : Arr ℝ} (hf : ∀ u, Raises (f u)) : Raises (vmap f a) := by
  rcases h : a.shape with _ | ⟨d, s⟩
  · exact vmap_scalar h
  · exact vmap_raises h (hf _)

end

variable [Jnp.Dtype] [Edge] {n m M q : ℕ} {pre : List ℕ}

theorem interpLR_tab {x xp fp : Arr ℝ} {u v : Fin (n + 2) → ℝ} (hp : Is1 xp u) (hf : Is1 fp v) (l r : ℝ) :
    interpLR x xp fp l r = .ok (map (fun x => Jnp.interpLR x u v l r) x) := by
  rw [interpLR, hp.1, hf.1, if_pos rfl]
  simp only [vec_1 hp, vec_1 hf]

theorem interpLR_raises {x xp fp : Arr ℝ} {l r : ℝ} (h : xp.shape ≠ fp.shape ∨ ∀ N, fp.shape ≠ [N]) :
    Raises (interpLR x xp fp l r) := by
  unfold interpLR
  split_ifs with e
  · have h' : ∀ N, xp.shape ≠ [N] := by
      rcases h with h | h
      · exact absurd e h
      · rwa [e]
    split
    · rename_i _ k hs; exact absurd hs (h' _)
    · rename_i _ k hs; exact absurd hs (h' _)
    · exact ⟨_, rfl⟩
  · exact ⟨_, rfl⟩

theorem interpLR_shape {x xp fp y : Arr ℝ} {l r : ℝ} (h : interpLR x xp fp l r = .ok y) : y.shape = x.shape := by
  unfold interpLR at h
  split_ifs at h
  split at h
  · rw [← Except.ok.inj h]; rfl
  · cases hE : Edge.interpShort _ with
    | error e => rw [hE] at h; cases h
    | ok f => rw [hE] at h; rw [← Except.ok.inj h]; rfl
  · cases h

/-! ### A filter, or a stack of filters -/

/-- The wavelengths of a stack of filters with leading axes `pre`: an array of that shape, or one common grid. -/
def FilterWaves (wf : Arr ℝ) (pre : List ℕ) {M : ℕ} (w : List ℕ → Fin M → ℝ) : Prop :=
  IsRows wf pre w ∨ ∃ w0, Is1 wf w0 ∧ w = fun _ => w0

theorem FilterWaves.map {wf : Arr ℝ} {w : List ℕ → Fin M → ℝ} (h : FilterWaves wf pre w) (g : ℝ → ℝ) :
    FilterWaves (Nd.map g wf) pre fun idx j => g (w idx j) := by
  rcases h with h | ⟨w0, h, rfl⟩
  · exact Or.inl (h.map g)
  · exact Or.inr ⟨_, h.map g, rfl⟩

theorem FilterWaves.reads {wf : Arr ℝ} {w : List ℕ → Fin M → ℝ} (h : FilterWaves wf pre w) : Reads wf pre w := by
  rcases h with h | ⟨w0, h, rfl⟩
  · exact h.reads
  · exact is1_reads h

theorem FilterWaves.bc {wf : Arr ℝ} {w : List ℕ → Fin M → ℝ} (h : FilterWaves wf pre w) :
    bcShape (pre ++ [M]) wf.shape = .ok (pre ++ [M]) := by
  rcases h with h | ⟨w0, h, rfl⟩
  · rw [h.1, bcShape_self]
  · rw [h.1]; exact bc_rows_vec

theorem FilterWaves.trapz {wf y : Arr ℝ} {w f : List ℕ → Fin (M + 1) → ℝ} (h : FilterWaves wf pre w) (hy : IsRows y pre f) :
    Ok (trapz wf y) (IsArr · pre fun idx => Utils.trapz (w idx) (f idx)) := by
  rcases h with h | ⟨w0, h, rfl⟩
  · exact trapezoid_rows hy h
  · exact trapezoid_rows_vec hy h

/-- the transmissions fit the wavelengths -/
structure Fits (wf tf : Arr ℝ) (pre : List ℕ) {M : ℕ} (w f : List ℕ → Fin (M + 1) → ℝ) : Prop where
  waves : FilterWaves wf pre w
  bc : bcShape tf.shape wf.shape = .ok (pre ++ [M + 1])
  trans : Reads tf pre f

theorem integral_ok {wf tf L : Arr ℝ} {w f g : List ℕ → Fin (M + 1) → ℝ} (hf : Fits wf tf pre w f) (hL : FilterWaves L pre g)
    (hs : L.shape = wf.shape) :
    Ok (do let a ← map2 (· * ·) tf L; let y ← map2 (· / ·) a wf; trapz wf y)
      (IsArr · pre fun idx => Utils.trapz (w idx) fun j => f idx j * g idx j / w idx j) := by
  refine (map2_reads (by rw [hs]; exact hf.bc) hf.trans hL.reads).bind fun a ha => ?_
  refine (map2_reads (by rw [ha.1]; exact hf.waves.bc) ha.reads hf.waves.reads).bind fun y hy => ?_
  exact hf.waves.trapz hy

theorem rest_flux_ok {ws ls wf tf : Arr ℝ} {u v : Fin (n + 2) → ℝ} {w f : List ℕ → Fin (M + 1) → ℝ} (hw : Is1 ws u)
    (hl : Is1 ls v) (hf : Fits wf tf pre w f) :
    Ok (rest_flux_ssp ws ls wf tf) (IsArr · pre fun idx => Photometry.rest_flux_ssp u v (w idx) (f idx)) := by
  refine Ok.bind (Q := (· = map (fun x => Jnp.interpLR x u v 0 0) wf)) ⟨_, interpLR_tab hw hl 0 0, rfl⟩ fun L e => ?_
  subst e
  exact integral_ok hf (hf.waves.map _) rfl

theorem obs_flux_ok {ws ls wf tf z : Arr ℝ} {u v : Fin (n + 2) → ℝ} {w f : List ℕ → Fin (M + 1) → ℝ} {x : ℝ} (hw : Is1 ws u)
    (hl : Is1 ls v) (hf : Fits wf tf pre w f) (hz : Is0 z x) :
    Ok (obs_flux_ssp ws ls wf tf z) (IsArr · pre fun idx => Photometry.obs_flux_ssp u v (w idx) (f idx) x) := by
  refine (map2_10 hw (hz.map (1 + ·))).bind fun W hW => ?_
  refine Ok.bind (Q := (· = map (fun y => Jnp.interpLR y (fun j => u j * (1 + x)) v 0 0) wf))
    ⟨_, interpLR_tab hW hl 0 0, rfl⟩ fun L e => ?_
  subst e
  exact integral_ok hf (hf.waves.map _) rfl

omit [Jnp.Dtype] [Edge] in
theorem reads_map {a : Arr ℝ} {u : List ℕ → Fin M → ℝ} (h : Reads a pre u) (g : ℝ → ℝ) :
    Reads (map g a) pre fun idx j => g (u idx j) := fun idx hi j => congrArg g (h idx hi j)

theorem ab0_ok {wf tf : Arr ℝ} {w f : List ℕ → Fin (M + 1) → ℝ} (hf : Fits wf tf pre w f) :
    Ok (flux_ab0_at_10pc wf tf) (IsArr · pre fun idx => Photometry.flux_ab0_at_10pc (w idx) (f idx)) := by
  refine (map2_reads (f := (· / ·)) (a := map (· * Photometry.AB0) tf) hf.bc (reads_map hf.trans (· * Photometry.AB0)) hf.waves.reads).bind fun y hy => ?_
  exact hf.waves.trapz hy

theorem calc_rest_flux_ok {ws ls wf tf : Arr ℝ} {u v : Fin (n + 2) → ℝ} {w f : List ℕ → Fin (M + 1) → ℝ} (hw : Is1 ws u)
    (hl : Is1 ls v) (hf : Fits wf tf pre w f) :
    Ok (calc_rest_flux ws ls wf tf) (IsArr · pre fun idx => Photometry.calc_rest_flux u v (w idx) (f idx)) :=
  (rest_flux_ok hw hl hf).bind fun _ ha => (ab0_ok hf).bind fun _ hb => map2_aa ha hb

theorem calc_rest_mag_ok {ws ls wf tf : Arr ℝ} {u v : Fin (n + 2) → ℝ} {w f : List ℕ → Fin (M + 1) → ℝ} (hw : Is1 ws u)
    (hl : Is1 ls v) (hf : Fits wf tf pre w f) :
    Ok (calc_rest_mag ws ls wf tf) (IsArr · pre fun idx => Photometry.calc_rest_mag u v (w idx) (f idx)) :=
  (calc_rest_flux_ok hw hl hf).bind fun _ ha => .pure (ha.map _)

theorem no_dimming_ok {ws ls wf tf z : Arr ℝ} {u v : Fin (n + 2) → ℝ} {w f : List ℕ → Fin (M + 1) → ℝ} {x : ℝ} (hw : Is1 ws u)
    (hl : Is1 ls v) (hf : Fits wf tf pre w f) (hz : Is0 z x) :
    Ok (calc_obs_mag_no_dimming ws ls wf tf z)
      (IsArr · pre fun idx => Photometry.calc_obs_mag_no_dimming u v (w idx) (f idx) x) :=
  (obs_flux_ok hw hl hf hz).bind fun _ ha => (ab0_ok hf).bind fun _ hb =>
    (map2_aa ha hb).bind fun _ hc => .pure (hc.map _)

theorem dimming_0 {z : Arr ℝ} {x Om0 w0 wa h : ℝ} (hz : Is0 z x) :
    Ok (cosmological_dimming z Om0 w0 wa h) (Is0 · (Photometry.cosmological_dimming x Om0 w0 wa h)) :=
  (modulus_0 hz).bind fun _ hd => map2_00 hd (hz.map _)

theorem calc_obs_mag_ok {ws ls wf tf z : Arr ℝ} {u v : Fin (n + 2) → ℝ} {w f : List ℕ → Fin (M + 1) → ℝ} {x Om0 w0 wa h : ℝ}
    (hw : Is1 ws u) (hl : Is1 ls v) (hf : Fits wf tf pre w f) (hz : Is0 z x) :
    Ok (calc_obs_mag ws ls wf tf z Om0 w0 wa h)
      (IsArr · pre fun idx => Photometry.calc_obs_mag u v (w idx) (f idx) x Om0 w0 wa h) :=
  (obs_flux_ok hw hl hf hz).bind fun _ ha => (ab0_ok hf).bind fun _ hb =>
    (map2_aa ha hb).bind fun _ hc => (dimming_0 hz).bind fun _ hd => map2_a0 (hc.map _) hd

theorem fits_one {wf tf : Arr ℝ} {w f : Fin (M + 1) → ℝ} (hw : Is1 wf w) (ht : Is1 tf f) :
    Fits wf tf [] (fun _ => w) (fun _ => f) :=
  ⟨Or.inr ⟨w, hw, rfl⟩, by rw [hw.1, ht.1]; exact bcShape_self _, is1_reads ht⟩

/-! ### Rejected arguments -/

/-- a spectrum that is not one-dimensional, or whose wavelengths and luminosities have different lengths -/
def BadSpectrum (ws ls : Arr ℝ) : Prop := ws.shape ≠ ls.shape ∨ ∀ N, ls.shape ≠ [N]

theorem rest_flux_raises {ws ls wf tf : Arr ℝ} (h : BadSpectrum ws ls) : Raises (rest_flux_ssp ws ls wf tf) :=
  Raises.bind (interpLR_raises h)

theorem obs_flux_raises {ws ls wf tf z : Arr ℝ} (h : BadSpectrum ws ls) (hz : z.shape = []) :
    Raises (obs_flux_ssp ws ls wf tf z) := by
  refine Raises.bind' fun W hW => Raises.bind (interpLR_raises ?_)
  have := map2_ok_shape hW
  rw [show (map (1 + ·) z).shape = [] from hz, bcShape_nil_right] at this
  rw [← Except.ok.inj this]
  exact h

theorem obs_flux_raises_z {ws ls wf tf z : Arr ℝ} (h : bcShape ws.shape z.shape ≠ .ok ls.shape) :
    Raises (obs_flux_ssp ws ls wf tf z) := by
  refine Raises.bind' fun W hW => Raises.bind (interpLR_raises (Or.inl fun e => h ?_))
  rw [← e]
  have := map2_ok_shape hW
  exact this

theorem filter_raises {wf tf L : Arr ℝ} {p q : ℕ} (hw : wf.shape = [p]) (ht : tf.shape = [q]) (h1 : p ≠ q) (h2 : p ≠ 1)
    (h3 : q ≠ 1) (hL : L.shape = wf.shape) :
    Raises (do let a ← map2 (· * ·) tf L; let y ← map2 (· / ·) a wf; trapz wf y) := by
  refine Raises.bind (map2_raises ?_)
  rw [hL, hw, ht]
  exact ⟨.typeError, by simp [bcShape, bcRev, Except.map, h1, h2, h3, Ne.symm h1]⟩

theorem rest_flux_filter_raises {ws ls wf tf : Arr ℝ} {p q : ℕ} (hw : wf.shape = [p]) (ht : tf.shape = [q]) (h1 : p ≠ q)
    (h2 : p ≠ 1) (h3 : q ≠ 1) : Raises (rest_flux_ssp ws ls wf tf) :=
  Raises.bind' fun _ hL => filter_raises hw ht h1 h2 h3 (interpLR_shape hL)

theorem obs_flux_filter_raises {ws ls wf tf z : Arr ℝ} {p q : ℕ} (hw : wf.shape = [p]) (ht : tf.shape = [q]) (h1 : p ≠ q)
    (h2 : p ≠ 1) (h3 : q ≠ 1) : Raises (obs_flux_ssp ws ls wf tf z) :=
  Raises.bind' fun _ _ => Raises.bind' fun _ hL => filter_raises hw ht h1 h2 h3 (interpLR_shape hL)

end Dsps.NdPhot
