import Verif.Lemmas.NdPhot

/-!
C122: array shapes in the photometry functions.  `Nd.Arr`, `Is0`…`Is4`, `Raises`, `HasShape` as in `Verif/Nd.lean`; the functions
of `Dsps.NdPhot` are those of `/repo/dsps/photometry` under numpy's shape rules; those of `Dsps.Photometry` are the
statically shaped functions the rest of the development is about.
-/
namespace Dsps.Props
open Nd Py Dsps.NdPhot Dsps.NdCosmo Dsps.NdSed

section
variable [Jnp.Dtype] [Edge] {n m nm na nf nz : ℕ} {Om0 w0 wa h : ℝ}

/-- C122: one spectrum through one filter, all arguments as documented: a scalar. -/
theorem C122_documented {ws ls wf tf z : Arr ℝ} {u v : Fin (n + 2) → ℝ} {w f : Fin (m + 1) → ℝ} {x : ℝ} (hw : Is1 ws u)
    (hl : Is1 ls v) (hwf : Is1 wf w) (htf : Is1 tf f) (hz : Is0 z x) :
    (∃ r, calc_rest_flux ws ls wf tf = .ok r ∧ Is0 r (Photometry.calc_rest_flux u v w f)) ∧
    (∃ r, calc_rest_mag ws ls wf tf = .ok r ∧ Is0 r (Photometry.calc_rest_mag u v w f)) ∧
    (∃ r, calc_obs_mag ws ls wf tf z Om0 w0 wa h = .ok r ∧ Is0 r (Photometry.calc_obs_mag u v w f x Om0 w0 wa h)) :=
  ⟨(calc_rest_flux_ok hw hl (fits_one hwf htf)).mono fun _ hr => hr.is0,
   (calc_rest_mag_ok hw hl (fits_one hwf htf)).mono fun _ hr => hr.is0,
   (calc_obs_mag_ok hw hl (fits_one hwf htf) hz).mono fun _ hr => hr.is0⟩

theorem fits_stack {wf tf : Arr ℝ} {w f : Fin nf → Fin (m + 1) → ℝ} (hwf : Is2 wf w) (htf : Is2 tf f) :
    ∃ w' f' : List ℕ → Fin (m + 1) → ℝ, Fits wf tf [nf] w' f' ∧ (∀ i : Fin nf, w' [i.1] = w i) ∧ ∀ i : Fin nf, f' [i.1] = f i :=
  ⟨_, _, ⟨Or.inl (is2_rows hwf), by rw [hwf.1, htf.1]; exact bcShape_self _, (is2_rows htf).reads⟩,
    fun i => by funext j; simp, fun i => by funext j; simp⟩

theorem fits_common {wf tf : Arr ℝ} {w : Fin (m + 1) → ℝ} {f : Fin nf → Fin (m + 1) → ℝ} (hwf : Is1 wf w) (htf : Is2 tf f) :
    ∃ f' : List ℕ → Fin (m + 1) → ℝ, Fits wf tf [nf] (fun _ => w) f' ∧ ∀ i : Fin nf, f' [i.1] = f i :=
  ⟨_, ⟨Or.inr ⟨w, hwf, rfl⟩, by rw [hwf.1, htf.1]; exact bc_rows_vec (pre := [nf]), (is2_rows htf).reads⟩,
    fun i => by funext j; simp⟩

/-- C122: a stack of filters, shape `(n_filters, n_trans)`, gives one magnitude per filter without any `vmap`; the filters may
have their own wavelengths, or share one grid. -/
theorem C122_filter_stack {ws ls wf wf1 tf z : Arr ℝ} {u v : Fin (n + 2) → ℝ} {w f : Fin nf → Fin (m + 1) → ℝ}
    {w1 : Fin (m + 1) → ℝ} {x : ℝ} (hw : Is1 ws u) (hl : Is1 ls v) (hwf : Is2 wf w) (hwf1 : Is1 wf1 w1) (htf : Is2 tf f)
    (hz : Is0 z x) :
    (∃ r, calc_rest_mag ws ls wf tf = .ok r ∧ Is1 r fun i => Photometry.calc_rest_mag u v (w i) (f i)) ∧
    (∃ r, calc_rest_mag ws ls wf1 tf = .ok r ∧ Is1 r fun i => Photometry.calc_rest_mag u v w1 (f i)) ∧
    (∃ r, calc_obs_mag ws ls wf tf z Om0 w0 wa h = .ok r ∧
      Is1 r fun i => Photometry.calc_obs_mag u v (w i) (f i) x Om0 w0 wa h) ∧
    (∃ r, calc_obs_mag ws ls wf1 tf z Om0 w0 wa h = .ok r ∧
      Is1 r fun i => Photometry.calc_obs_mag u v w1 (f i) x Om0 w0 wa h) := by
  obtain ⟨w', f', hf, e1, e2⟩ := fits_stack hwf htf
  obtain ⟨f'', hf1, e3⟩ := fits_common hwf1 htf
  exact ⟨(calc_rest_mag_ok hw hl hf).mono fun _ hr => is1_mono hr fun i => by rw [e1, e2],
    (calc_rest_mag_ok hw hl hf1).mono fun _ hr => is1_mono hr fun i => by rw [e3],
    (calc_obs_mag_ok hw hl hf hz).mono fun _ hr => is1_mono hr fun i => by rw [e1, e2],
    (calc_obs_mag_ok hw hl hf1 hz).mono fun _ hr => is1_mono hr fun i => by rw [e3]⟩

/-- C122: a transmission that is a single number, or an array of one number, is a filter of constant transmission. -/
theorem C122_constant_transmission {ws ls wf tf z : Arr ℝ} {u v : Fin (n + 2) → ℝ} {w : Fin (m + 1) → ℝ} {c x : ℝ}
    (hw : Is1 ws u) (hl : Is1 ls v) (hwf : Is1 wf w) (htf : Is0 tf c ∨ Is1 tf fun _ : Fin 1 => c) (hz : Is0 z x) :
    (∃ r, calc_rest_mag ws ls wf tf = .ok r ∧ Is0 r (Photometry.calc_rest_mag u v w fun _ => c)) ∧
    (∃ r, calc_obs_mag ws ls wf tf z Om0 w0 wa h = .ok r ∧
      Is0 r (Photometry.calc_obs_mag u v w (fun _ => c) x Om0 w0 wa h)) := by
  have hf : Fits wf tf [] (fun _ => w) (fun _ _ => c) := by
    refine ⟨Or.inr ⟨w, hwf, rfl⟩, ?_, ?_⟩
    · rcases htf with h | h
      · rw [h.1, hwf.1]; exact bcShape_nil_left _
      · rw [h.1, hwf.1]
        by_cases e : m + 1 = 1
        · rw [e]; exact bcShape_self _
        · simp [bcShape, bcRev, Except.map]
          split_ifs <;> simp_all
    · rcases htf with h | h
      · exact is0_reads h
      · exact is11_reads h
  exact ⟨(calc_rest_mag_ok hw hl hf).mono fun _ hr => hr.is0, (calc_obs_mag_ok hw hl hf hz).mono fun _ hr => hr.is0⟩

/-- C122: a spectrum that is not one-dimensional (a stack of SEDs, say) or whose wavelengths and luminosities differ in
length raises, whatever the filter is. -/
theorem C122_spectrum_raises {ws ls z : Arr ℝ} (hb : ws.shape ≠ ls.shape ∨ ∀ N, ls.shape ≠ [N]) (hz : z.shape = [])
    (wf tf : Arr ℝ) :
    Raises (calc_rest_flux ws ls wf tf) ∧ Raises (calc_rest_mag ws ls wf tf) ∧ Raises (calc_obs_mag ws ls wf tf z Om0 w0 wa h) :=
  ⟨Raises.bind (rest_flux_raises hb), Raises.bind (Raises.bind (rest_flux_raises hb)), Raises.bind (obs_flux_raises hb hz)⟩

/-- C122: a filter whose wavelengths and transmissions differ in length raises (unless one of them is a single number),
whatever the spectrum is. -/
theorem C122_filter_raises {wf tf : Arr ℝ} {p q : ℕ} (hw : wf.shape = [p]) (ht : tf.shape = [q]) (h1 : p ≠ q) (h2 : p ≠ 1)
    (h3 : q ≠ 1) (ws ls z : Arr ℝ) :
    Raises (calc_rest_flux ws ls wf tf) ∧ Raises (calc_rest_mag ws ls wf tf) ∧ Raises (calc_obs_mag ws ls wf tf z Om0 w0 wa h) :=
  ⟨Raises.bind (rest_flux_filter_raises hw ht h1 h2 h3), Raises.bind (Raises.bind (rest_flux_filter_raises hw ht h1 h2 h3)),
   Raises.bind (obs_flux_filter_raises hw ht h1 h2 h3)⟩

theorem obs_flux_vec {ws ls wf tf z : Arr ℝ} {u v : Fin (n + 2) → ℝ} {w f : Fin (m + 1) → ℝ} {q : ℕ} (hw : Is1 ws u)
    (hl : Is1 ls v) (hwf : Is1 wf w) (htf : Is1 tf f) (hz : z.shape = [q]) (hq : q = 1 ∨ q = n + 2) :
    Ok (obs_flux_ssp ws ls wf tf z) fun r => r.shape = [] := by
  have hs : bcShape ws.shape (map (1 + ·) z).shape = .ok [n + 2] := by
    show bcShape ws.shape z.shape = _
    rw [hw.1, hz]
    exact (bc_table (by omega)).1 hq
  refine Ok.bind (Q := fun W => Is1 W fun i : Fin (n + 2) => W.dat [i.1]) ⟨_, map2_shape hs, rfl, fun _ => rfl⟩ fun W hW => ?_
  refine Ok.bind (Q := (· = map (fun y => Jnp.interpLR y (fun i => W.dat [i.1]) v 0 0) wf))
    ⟨_, interpLR_tab hW hl 0 0, rfl⟩ fun L e => ?_
  subst e
  exact (integral_ok (fits_one hwf htf) ((fits_one hwf htf).waves.map _) rfl).mono fun _ hr => hr.1

/-- C122: an array of redshifts is not computed element by element: `calc_obs_mag` raises unless the array has one entry — or
256 entries and the spectrum too — and then returns 256 numbers. -/
theorem C122_redshift_array {ws ls wf tf z : Arr ℝ} {u v : Fin (n + 2) → ℝ} {w f : Fin (m + 1) → ℝ} {q : ℕ} (hw : Is1 ws u)
    (hl : Is1 ls v) (hwf : Is1 wf w) (htf : Is1 tf f) (hz : z.shape = [q + 1]) :
    ((q + 1 = 1 ∨ (q + 1 = 256 ∧ n + 2 = 256)) → HasShape (calc_obs_mag ws ls wf tf z Om0 w0 wa h) [256]) ∧
    (¬ (q + 1 = 1 ∨ (q + 1 = 256 ∧ n + 2 = 256)) → Raises (calc_obs_mag ws ls wf tf z Om0 w0 wa h)) := by
  constructor
  · intro hq
    refine (obs_flux_vec hw hl hwf htf hz (by omega)).bind fun a ha => ?_
    refine (ab0_ok (fits_one hwf htf)).bind fun b hb => ?_
    refine Ok.bind (Q := fun r => r.shape = []) ⟨_, map2_shape (s := []) ?_, rfl⟩ fun c hc => ?_
    · rw [ha, hb.1, bcShape_self]
    · have hd : Ok (cosmological_dimming z Om0 w0 wa h) fun r => r.shape = [256] := by
        refine Ok.bind (Q := fun r => r.shape = [256])
          (((scaled_shape hz).1 (by omega)).bind fun d hd => .pure hd) fun d hd => ⟨_, map2_shape (s := [256]) ?_, rfl⟩
        show bcShape d.shape z.shape = _
        rw [hd, hz]
        exact (bc_table (by norm_num)).1 (by omega)
      refine hd.bind fun d hd => ⟨_, map2_shape (s := [256]) ?_, rfl⟩
      show bcShape c.shape d.shape = _
      rw [hc, hd, bcShape_nil_left]
  · intro hq
    by_cases h2 : q + 1 = n + 2
    · refine (obs_flux_vec hw hl hwf htf hz (Or.inr h2)).raises fun a _ => ?_
      refine (ab0_ok (fits_one hwf htf)).raises fun b hb => Raises.bind' fun c _ => Raises.bind ?_
      exact Raises.bind (Raises.bind ((scaled_shape hz).2 (by omega) (by omega)))
    · refine Raises.bind (obs_flux_raises_z ?_)
      rw [hw.1, hl.1, hz]
      obtain ⟨e, he⟩ := (bc_table (N := n + 2) (M := q + 1) (by omega)).2 (by omega) h2
      rw [he]
      exact fun h => by cases h

/-! ### Tables of magnitudes -/

/-- C122: `precompute_ssp_obsmags_on_z_table` on the documented shapes: axes redshift, metallicity, age, filter, in that
order. -/
theorem C122_obsmag_table {ws F fw ft z : Arr ℝ} {u : Fin (n + 2) → ℝ} {v : Fin (nm + 1) → Fin (na + 1) → Fin (n + 2) → ℝ}
    {w f : Fin (nf + 1) → Fin (m + 1) → ℝ} {x : Fin (nz + 1) → ℝ} (hw : Is1 ws u) (hF : Is3 F v) (hfw : Is2 fw w)
    (hft : Is2 ft f) (hz : Is1 z x) :
    ∃ r, precompute_ssp_obsmags_on_z_table ws F fw ft z Om0 w0 wa h = .ok r ∧
      Is4 r fun a b c d => Photometry.calc_obs_mag u (v b c) (w d) (f d) (x a) Om0 w0 wa h := by
  refine vmap_1_3 (g := fun x b c d => Photometry.calc_obs_mag u (v b c) (w d) (f d) x Om0 w0 wa h) hz fun zz xx hzz => ?_
  refine vmap_3_2 (g := fun vv c d => Photometry.calc_obs_mag u (vv c) (w d) (f d) xx Om0 w0 wa h) hF fun F2 v2 hF2 => ?_
  refine vmap_2_1 (g := fun vv d => Photometry.calc_obs_mag u vv (w d) (f d) xx Om0 w0 wa h) hF2 fun F1 v1 hF1 => ?_
  refine vmapTwo_2_0 (g := fun ww ff => Photometry.calc_obs_mag u v1 ww ff xx Om0 w0 wa h) hfw hft fun a b s t ha hb => ?_
  exact (calc_obs_mag_ok hw hF1 (fits_one ha hb) hzz).mono fun _ hr => hr.is0

/-- C122: `precompute_ssp_restmags`: axes metallicity, age, filter. -/
theorem C122_restmag_table {ws F fw ft : Arr ℝ} {u : Fin (n + 2) → ℝ} {v : Fin (nm + 1) → Fin (na + 1) → Fin (n + 2) → ℝ}
    {w f : Fin (nf + 1) → Fin (m + 1) → ℝ} (hw : Is1 ws u) (hF : Is3 F v) (hfw : Is2 fw w) (hft : Is2 ft f) :
    ∃ r, precompute_ssp_restmags ws F fw ft = .ok r ∧
      Is3 r fun b c d => Photometry.calc_rest_mag u (v b c) (w d) (f d) := by
  refine vmap_3_2 (g := fun vv c d => Photometry.calc_rest_mag u (vv c) (w d) (f d)) hF fun F2 v2 hF2 => ?_
  refine vmap_2_1 (g := fun vv d => Photometry.calc_rest_mag u vv (w d) (f d)) hF2 fun F1 v1 hF1 => ?_
  refine vmapTwo_2_0 (g := fun ww ff => Photometry.calc_rest_mag u v1 ww ff) hfw hft fun a b s t ha hb => ?_
  exact (calc_rest_mag_ok hw hF1 (fits_one ha hb)).mono fun _ hr => hr.is0

/-- C122: `precompute_ssp_restmags_z_kcorrect`: the same axes. -/
theorem C122_kcorrect_table {ws F fw ft z : Arr ℝ} {u : Fin (n + 2) → ℝ} {v : Fin (nm + 1) → Fin (na + 1) → Fin (n + 2) → ℝ}
    {w f : Fin (nf + 1) → Fin (m + 1) → ℝ} {x : ℝ} (hw : Is1 ws u) (hF : Is3 F v) (hfw : Is2 fw w)
    (hft : Is2 ft f) (hz : Is0 z x) :
    ∃ r, precompute_ssp_restmags_z_kcorrect ws F fw ft z = .ok r ∧
      Is3 r fun b c d => Photometry.calc_obs_mag_no_dimming u (v b c) (w d) (f d) x := by
  refine vmap_3_2 (g := fun vv c d => Photometry.calc_obs_mag_no_dimming u (vv c) (w d) (f d) x) hF fun F2 v2 hF2 => ?_
  refine vmap_2_1 (g := fun vv d => Photometry.calc_obs_mag_no_dimming u vv (w d) (f d) x) hF2 fun F1 v1 hF1 => ?_
  refine vmapTwo_2_0 (g := fun ww ff => Photometry.calc_obs_mag_no_dimming u v1 ww ff x) hfw hft fun a b s t ha hb => ?_
  exact (no_dimming_ok hw hF1 (fits_one ha hb) hz).mono fun _ hr => hr.is0

theorem table_raises {g : Arr ℝ → Except PyErr (Arr ℝ)} {F : Arr ℝ} (hg : ∀ l : Arr ℝ, (∀ N, l.shape ≠ [N]) → Raises (g l))
    (hF : F.shape.length ≠ 3) : Raises (vmap (vmap g) F) := by
  rcases h : F.shape with _ | ⟨a, _ | ⟨b, s⟩⟩
  · exact vmap_scalar h
  · exact vmap_raises h (vmap_scalar rfl)
  · refine vmap_raises h (vmap_raises rfl (hg _ fun N e => ?_))
    simp only [row] at e
    rw [h, e] at hF
    simp at hF

/-- C122: a flux table that is not three-dimensional raises; so does a set of filters whose wavelengths and transmissions
differ in number, and, for the observed table, a single redshift that is not an array. -/
theorem C122_table_raises {ws F fw ft z : Arr ℝ} :
    (F.shape.length ≠ 3 → Raises (precompute_ssp_restmags ws F fw ft) ∧
      (z.shape = [] → Raises (precompute_ssp_restmags_z_kcorrect ws F fw ft z)) ∧
      ((∃ N, z.shape = [N]) → Raises (precompute_ssp_obsmags_on_z_table ws F fw ft z Om0 w0 wa h))) ∧
    ((∃ a b s t, fw.shape = a :: s ∧ ft.shape = b :: t ∧ a ≠ b) → Raises (precompute_ssp_restmags ws F fw ft) ∧
      Raises (precompute_ssp_restmags_z_kcorrect ws F fw ft z) ∧
      Raises (precompute_ssp_obsmags_on_z_table ws F fw ft z Om0 w0 wa h)) ∧
    (z.shape = [] → Raises (precompute_ssp_obsmags_on_z_table ws F fw ft z Om0 w0 wa h)) := by
  refine ⟨fun hF => ⟨?_, fun hz => ?_, ?_⟩, ?_, fun hz => vmap_scalar hz⟩
  · exact table_raises (fun l hl => vmapTwo_raises fun a b =>
      Raises.bind (Raises.bind (rest_flux_raises (Or.inr hl)))) hF
  · exact table_raises (fun l hl => vmapTwo_raises fun a b => Raises.bind (obs_flux_raises (Or.inr hl) hz)) hF
  · rintro ⟨N, hz⟩
    exact vmap_raises hz (table_raises (fun l hl => vmapTwo_raises fun a b =>
      Raises.bind (obs_flux_raises (Or.inr hl) rfl)) hF)
  · rintro ⟨a, b, s, t, h1, h2, hab⟩
    exact ⟨vmap_raises_all fun _ => vmap_raises_all fun _ => vmapTwo_mismatch h1 h2 hab,
      vmap_raises_all fun _ => vmap_raises_all fun _ => vmapTwo_mismatch h1 h2 hab,
      vmap_raises_all fun _ => vmap_raises_all fun _ => vmap_raises_all fun _ => vmapTwo_mismatch h1 h2 hab⟩

end

/-! ### Concrete cases -/

section Examples
variable [Jnp.Dtype] [Edge]

noncomputable def exWave : Arr ℝ := ⟨[4], fun i => i.headD 0 + 1⟩
noncomputable def exLum : Arr ℝ := ⟨[4], fun _ => 1⟩
noncomputable def exFilters : Arr ℝ := ⟨[2, 3], fun i => i.getLastD 0 + 2⟩

theorem exWave_is : Is1 exWave (fun i : Fin (2 + 2) => (i : ℝ) + 1) := ⟨rfl, fun _ => rfl⟩
theorem exLum_is : Is1 exLum (fun _ : Fin (2 + 2) => 1) := ⟨rfl, fun _ => rfl⟩
theorem exFilters_is : Is2 exFilters (fun (_ : Fin 2) (j : Fin (2 + 1)) => (j : ℝ) + 2) := ⟨rfl, fun _ _ => rfl⟩
theorem exGrid_is : Is1 (⟨[3], fun i => i.headD 0 + 2⟩ : Arr ℝ) (fun j : Fin (2 + 1) => (j : ℝ) + 2) := ⟨rfl, fun _ => rfl⟩

/-- two filters at once: two magnitudes -/
example : HasShape (calc_obs_mag exWave exLum exFilters exFilters (scal 0.5) 0.3 (-1) 0 0.7) [2] := by
  obtain ⟨-, -, ⟨r, e, hr⟩, -⟩ := C122_filter_stack (Om0 := 0.3) (w0 := -1) (wa := 0) (h := 0.7) exWave_is exLum_is exFilters_is
    exGrid_is exFilters_is (Is0.scal 0.5)
  exact ⟨r, e, hr.1⟩

/-- two SEDs at once raise; so do two redshifts; one redshift in an array gives 256 numbers -/
example : Raises (calc_rest_mag exWave ⟨[2, 4], fun _ => 1⟩ exFilters exFilters) ∧
    Raises (calc_obs_mag exWave exLum ⟨[3], fun i => i.headD 0 + 2⟩ ⟨[3], fun i => i.headD 0 + 2⟩ ⟨[2], fun _ => 1⟩ 0.3 (-1) 0 0.7) ∧
    HasShape (calc_obs_mag exWave exLum ⟨[3], fun i => i.headD 0 + 2⟩ ⟨[3], fun i => i.headD 0 + 2⟩ ⟨[1], fun _ => 1⟩ 0.3 (-1) 0 0.7)
      [256] :=
  ⟨(C122_spectrum_raises (Om0 := 0) (w0 := 0) (wa := 0) (h := 0) (z := scal 0) (Or.inl (by simp [exWave])) rfl _ _).2.1,
   (C122_redshift_array (q := 1) exWave_is exLum_is exGrid_is exGrid_is rfl).2 (by norm_num),
   (C122_redshift_array (q := 0) exWave_is exLum_is exGrid_is exGrid_is rfl).1 (Or.inl rfl)⟩

/-- a table for 2 redshifts, 3 metallicities, 5 ages and 2 filters -/
example : HasShape (precompute_ssp_obsmags_on_z_table exWave ⟨[3, 5, 4], fun _ => 1⟩ exFilters exFilters ⟨[2], fun _ => 1⟩ 0.3 (-1)
    0 0.7) [2, 3, 5, 2] := by
  obtain ⟨r, e, hr⟩ := C122_obsmag_table (nm := 2) (na := 4) (nf := 1) (nz := 1) (F := ⟨[3, 5, 4], fun _ => 1⟩)
    (z := ⟨[2], fun _ => 1⟩) (v := fun _ _ _ => 1) (x := fun _ => 1)
    (Om0 := 0.3) (w0 := -1) (wa := 0) (h := 0.7) exWave_is ⟨rfl, fun _ _ _ => rfl⟩ exFilters_is exFilters_is ⟨rfl, fun _ => rfl⟩
  exact ⟨r, e, hr.1⟩

/-- the documented call: one magnitude; a constant transmission instead of a curve is accepted; curves of different length raise -/
example : HasShape (calc_obs_mag exWave exLum ⟨[3], fun i => i.headD 0 + 2⟩ ⟨[3], fun i => i.headD 0 + 2⟩ (scal 0.5) 0.3 (-1) 0 0.7) [] ∧
    HasShape (calc_rest_mag exWave exLum ⟨[3], fun i => i.headD 0 + 2⟩ (scal 1)) [] ∧
    Raises (calc_rest_mag exWave exLum ⟨[3], fun i => i.headD 0 + 2⟩ exWave) := by
  obtain ⟨-, -, ⟨r, e, hr⟩⟩ := C122_documented (Om0 := 0.3) (w0 := -1) (wa := 0) (h := 0.7) exWave_is exLum_is exGrid_is
    exGrid_is (Is0.scal 0.5)
  obtain ⟨⟨r', e', hr'⟩, -⟩ := C122_constant_transmission (Om0 := 0.3) (w0 := -1) (wa := 0) (h := 0.7) exWave_is exLum_is exGrid_is
    (Or.inl (Is0.scal 1)) (Is0.scal 0.5)
  exact ⟨⟨r, e, hr.1⟩, ⟨r', e', hr'.1⟩,
    (C122_filter_raises (Om0 := 0.3) (w0 := -1) (wa := 0) (h := 0.7) (p := 3) (q := 4) rfl rfl (by norm_num) (by norm_num)
      (by norm_num) _ _ (scal 0)).2.1⟩

/-- the rest-frame tables for 3 metallicities, 5 ages and 2 filters -/
example : HasShape (precompute_ssp_restmags exWave ⟨[3, 5, 4], fun _ => 1⟩ exFilters exFilters) [3, 5, 2] ∧
    HasShape (precompute_ssp_restmags_z_kcorrect exWave ⟨[3, 5, 4], fun _ => 1⟩ exFilters exFilters (scal 0.1)) [3, 5, 2] := by
  obtain ⟨r, e, hr⟩ := C122_restmag_table (nm := 2) (na := 4) (nf := 1) (F := ⟨[3, 5, 4], fun _ => 1⟩) (v := fun _ _ _ => 1)
    exWave_is ⟨rfl, fun _ _ _ => rfl⟩ exFilters_is exFilters_is
  obtain ⟨r', e', hr'⟩ := C122_kcorrect_table (nm := 2) (na := 4) (nf := 1) (F := ⟨[3, 5, 4], fun _ => 1⟩) (v := fun _ _ _ => 1)
    exWave_is ⟨rfl, fun _ _ _ => rfl⟩ exFilters_is exFilters_is (Is0.scal 0.1)
  exact ⟨⟨r, e, hr.1⟩, ⟨r', e', hr'.1⟩⟩

/-- a two-dimensional flux table raises, and so does a scalar redshift where a table is expected -/
example : Raises (precompute_ssp_restmags exWave ⟨[5, 4], fun _ => 1⟩ exFilters exFilters) ∧
    Raises (precompute_ssp_obsmags_on_z_table exWave ⟨[3, 5, 4], fun _ => 1⟩ exFilters exFilters (scal 0.1) 0.3 (-1) 0 0.7) :=
  ⟨((C122_table_raises (z := scal 0) (Om0 := 0.3) (w0 := -1) (wa := 0) (h := 0.7)).1 (by simp)).1, C122_table_raises.2.2 rfl⟩

end Examples

end Dsps.Props
