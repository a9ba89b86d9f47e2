import Verif.Lemmas.NdBatch

/-!
C119, C120: array shapes in the SED pipeline.

`Nd.Arr` is an array with a run-time shape; `Is0 a x`, `Is1 a f`, `Is2 a f`, `Is3 a f` say that `a` has zero to three
dimensions and the given entries.  `calc_…` are the functions of `/repo/dsps/sed` written with numpy's broadcasting, reshape,
axis and `vmap` rules; the functions of `Dsps.SspWeights` etc. are the statically shaped model the rest of the development is
about.
-/
namespace Dsps.Props
open Nd Py Dsps.NdSed Dsps.Constants

section
variable [Jnp.Dtype] [Edge] {n m k w : ℕ}

/-! ### C119 -/

/-- C119: `calc_age_weights_from_sfh_table` on arguments of the documented shapes returns an array of shape `(n_ages,)`. -/
theorem C119_age_weights {t s ag tob c : Arr ℝ} {a b : Fin (n + 2) → ℝ} {g : Fin (m + 3) → ℝ} {x y : ℝ} (ht : Is1 t a)
    (hs : Is1 s b) (hag : Is1 ag g) (hto : Is0 tob x) (hc : Is0 c y) :
    ∃ r, calc_age_weights_from_sfh_table t s ag tob c = .ok r ∧
      Is1 r (StellarAgeWeights.calc_age_weights_from_sfh_table a b g x y) :=
  age_weights_ok ht hs hag hto hc

/-- C119: `calc_lgmet_weights_from_lognormal_mdf` returns an array of shape `(n_met,)`. -/
theorem C119_lgmet_weights_lognormal {z sg l : Arr ℝ} {zv sv : ℝ} {d : Fin (k + 3) → ℝ} (hz : Is0 z zv) (hsg : Is0 sg sv)
    (hl : Is1 l d) :
    ∃ r, calc_lgmet_weights_from_lognormal_mdf z sg l = .ok r ∧
      Is1 r (MetallicityWeights.calc_lgmet_weights_from_lognormal_mdf zv sv d) :=
  lognormal_met_ok hz hsg hl

/-- C119: `calc_lgmet_weights_from_lgmet_table` returns an array of shape `(n_met, n_ages)`: the axes are in that order
even when `n_met = n_ages`. -/
theorem C119_lgmet_weights_table {t z sg l ag tob : Arr ℝ} {a b : Fin (n + 2) → ℝ} {sv x : ℝ} {d : Fin (k + 3) → ℝ}
    {g : Fin (m + 1) → ℝ} (ht : Is1 t a) (hz : Is1 z b) (hsg : Is0 sg sv) (hl : Is1 l d) (hag : Is1 ag g)
    (hto : Is0 tob x) :
    ∃ r, calc_lgmet_weights_from_lgmet_table t z sg l ag tob = .ok r ∧
      Is2 r (MetallicityWeights.calc_lgmet_weights_from_lgmet_table a b sv d g x) :=
  met_table_ok ht hz hsg hl hag hto

/-- C119: `calc_ssp_weights_sfh_table_lognormal_mdf`: joint weights `(n_met, n_ages)`, factors `(n_met,)`, `(n_ages,)`. -/
theorem C119_ssp_weights_lognormal {t s z sg l ag tob : Arr ℝ} {a b : Fin (n + 2) → ℝ} {zv sv x : ℝ} {d : Fin (k + 3) → ℝ}
    {g : Fin (m + 3) → ℝ} (ht : Is1 t a) (hs : Is1 s b) (hz : Is0 z zv) (hsg : Is0 sg sv) (hl : Is1 l d) (hag : Is1 ag g)
    (hto : Is0 tob x) :
    ∃ W, calc_ssp_weights_sfh_table_lognormal_mdf t s z sg l ag tob = .ok W ∧
      let V := SspWeights.calc_ssp_weights_sfh_table_lognormal_mdf a b zv sv d g x
      Is2 W.weights V.weights ∧ Is1 W.lgmet_weights V.lgmet_weights ∧ Is1 W.age_weights V.age_weights :=
  ssp_weights_lognormal_ok ht hs hz hsg hl hag hto

/-- C119: `calc_ssp_weights_sfh_table_met_table`: joint weights `(n_met, n_ages)`; the metallicity weights are a matrix
`(n_met, n_ages)`, although the docstring announces `(n_met,)`. -/
theorem C119_ssp_weights_met_table {t s z sg l ag tob : Arr ℝ} {a b zt : Fin (n + 2) → ℝ} {sv x : ℝ} {d : Fin (k + 3) → ℝ}
    {g : Fin (m + 3) → ℝ} (ht : Is1 t a) (hs : Is1 s b) (hz : Is1 z zt) (hsg : Is0 sg sv) (hl : Is1 l d) (hag : Is1 ag g)
    (hto : Is0 tob x) :
    ∃ W, calc_ssp_weights_sfh_table_met_table t s z sg l ag tob = .ok W ∧
      let V := SspWeights.calc_ssp_weights_sfh_table_met_table a b zt sv d g x
      Is2 W.weights V.weights ∧ Is2 W.lgmet_weights V.lgmet_weights ∧ Is1 W.age_weights V.age_weights :=
  ssp_weights_met_table_ok ht hs hz hsg hl hag hto

theorem readFlux_three {F : Arr ℝ} {f : Fin k → Fin m → Fin w → ℝ} (hF : Is3 F f) (i : Fin k) (j : Fin m) (l : Fin w) :
    readFlux F i j l = f i j l := by
  rw [readFlux, hF.1, bcIdx_three i.2 j.2 l.2, hF.2]

/-- C119: `calc_rest_sed_sfh_table_lognormal_mdf` on the documented shapes: an SED of shape `(n_wave,)`, and weights of
shape `(n_met, n_ages)` (the docstring says `(n_met, n_ages, 1)`). -/
theorem C119_rest_sed_lognormal {t s z sg l ag F tob c : Arr ℝ} {a b : Fin (n + 2) → ℝ} {zv sv x y : ℝ}
    {d : Fin (k + 3) → ℝ} {g : Fin (m + 3) → ℝ} {f : Fin (k + 3) → Fin (m + 3) → Fin w → ℝ} (ht : Is1 t a) (hs : Is1 s b)
    (hz : Is0 z zv) (hsg : Is0 sg sv) (hl : Is1 l d) (hag : Is1 ag g) (hF : Is3 F f) (hto : Is0 tob x) (hc : Is0 c y) :
    ∃ R, calc_rest_sed_sfh_table_lognormal_mdf t s z sg l ag F tob c = .ok R ∧
      let V := SspWeights.calc_rest_sed_sfh_table_lognormal_mdf a b zv sv d g f x y
      Is1 R.rest_sed V.rest_sed ∧ Is2 R.weights V.weights ∧ Is1 R.lgmet_weights V.lgmet_weights ∧
        Is1 R.age_weights V.age_weights := by
  refine (ssp_weights_lognormal_ok ht hs hz hsg hl hag hto).bind fun W hW => ?_
  refine (sed_le_three_ok hW.1 ht hs hto hc (d := w) ?_).mono fun R hR => ⟨?_, ?_, ?_, ?_⟩
  · rw [hF.1]
    exact bc_flux_three (pre := []) (by omega) (by omega) (Or.inl rfl) (Or.inl rfl)
  · refine hR.1.congr fun l => ?_
    simp only [readFlux_three hF]
    rfl
  · rw [hR.2.1]; exact hW.1
  · rw [hR.2.2.1]; exact hW.2.1
  · rw [hR.2.2.2]; exact hW.2.2

/-- C119: `calc_rest_sed_sfh_table_met_table` on the documented shapes. -/
theorem C119_rest_sed_met_table {t s z sg l ag F tob c : Arr ℝ} {a b zt : Fin (n + 2) → ℝ} {sv x y : ℝ}
    {d : Fin (k + 3) → ℝ} {g : Fin (m + 3) → ℝ} {f : Fin (k + 3) → Fin (m + 3) → Fin w → ℝ} (ht : Is1 t a) (hs : Is1 s b)
    (hz : Is1 z zt) (hsg : Is0 sg sv) (hl : Is1 l d) (hag : Is1 ag g) (hF : Is3 F f) (hto : Is0 tob x) (hc : Is0 c y) :
    ∃ R, calc_rest_sed_sfh_table_met_table t s z sg l ag F tob c = .ok R ∧
      let V := SspWeights.calc_rest_sed_sfh_table_met_table a b zt sv d g f x y
      Is1 R.rest_sed V.rest_sed ∧ Is2 R.weights V.weights ∧ Is2 R.lgmet_weights V.lgmet_weights ∧
        Is1 R.age_weights V.age_weights := by
  refine (ssp_weights_met_table_ok ht hs hz hsg hl hag hto).bind fun W hW => ?_
  refine (sed_le_three_ok hW.1 ht hs hto hc (d := w) ?_).mono fun R hR => ⟨?_, ?_, ?_, ?_⟩
  · rw [hF.1]
    exact bc_flux_three (pre := []) (by omega) (by omega) (Or.inl rfl) (Or.inl rfl)
  · refine hR.1.congr fun l => ?_
    simp only [readFlux_three hF]
    rfl
  · rw [hR.2.1]; exact hW.1
  · rw [hR.2.2.1]; exact hW.2.1
  · rw [hR.2.2.2]; exact hW.2.2

/-! ### C120: the flux table -/

open Classical in
/-- C120: with the other arguments as documented, both SED functions return iff the shape of `ssp_flux` fits: counted from
the end, its second dimension, if any, is `n_ages` or 1, and its third, if any, is `n_met` or 1 (`FluxFits`).  The shape of
the SED is then `(n_wave,)` up to three dimensions, and loses two leading dimensions beyond. -/
theorem C120_flux_accepted {t s z zt sg l ag F tob c : Arr ℝ} {a b b' : Fin (n + 2) → ℝ} {zv sv x y : ℝ}
    {d : Fin (k + 3) → ℝ} {g : Fin (m + 3) → ℝ} (ht : Is1 t a) (hs : Is1 s b) (hz : Is0 z zv) (hzt : Is1 zt b')
    (hsg : Is0 sg sv) (hl : Is1 l d) (hag : Is1 ag g) (hto : Is0 tob x) (hc : Is0 c y) :
    let shape := if F.shape.length ≤ 3 then [F.shape.getLastD 1]
      else (F.shape.take (F.shape.length - 3) ++ [k + 3, m + 3, F.shape.getLastD 1]).drop 2
    (if FluxFits (k + 3) (m + 3) F.shape then
      (∃ R, calc_rest_sed_sfh_table_lognormal_mdf t s z sg l ag F tob c = .ok R ∧ R.rest_sed.shape = shape) ∧
      (∃ R, calc_rest_sed_sfh_table_met_table t s zt sg l ag F tob c = .ok R ∧ R.rest_sed.shape = shape)
     else
      Raises (calc_rest_sed_sfh_table_lognormal_mdf t s z sg l ag F tob c) ∧
      Raises (calc_rest_sed_sfh_table_met_table t s zt sg l ag F tob c)) := by
  classical
  intro shape
  split_ifs with hf
  · exact ⟨(ssp_weights_lognormal_ok ht hs hz hsg hl hag hto).bind fun W hW =>
        sed_fits_ok (by omega) (by omega) hW.1 ht hs hto hc hf,
      (ssp_weights_met_table_ok ht hs hzt hsg hl hag hto).bind fun W hW =>
        sed_fits_ok (by omega) (by omega) hW.1 ht hs hto hc hf⟩
  · exact ⟨(ssp_weights_lognormal_ok ht hs hz hsg hl hag hto).raises fun W hW =>
        sed_raises (by omega) (by omega) hW.1 hf,
      (ssp_weights_met_table_ok ht hs hzt hsg hl hag hto).raises fun W hW =>
        sed_raises (by omega) (by omega) hW.1 hf⟩

/-- C120: a three-dimensional table whose number of metallicities or ages is wrong (and not 1) raises; in particular a table
with its first two axes exchanged does, unless there are as many metallicities as ages. -/
theorem C120_flux_wrong_count_raises {t s z zt sg l ag F tob c : Arr ℝ} {a b b' : Fin (n + 2) → ℝ} {zv sv x y : ℝ}
    {d : Fin (k + 3) → ℝ} {g : Fin (m + 3) → ℝ} {p q : ℕ} (ht : Is1 t a) (hs : Is1 s b) (hz : Is0 z zv) (hzt : Is1 zt b')
    (hsg : Is0 sg sv) (hl : Is1 l d) (hag : Is1 ag g) (hto : Is0 tob x) (hc : Is0 c y) (hF : F.shape = [p, q, w])
    (h : (p ≠ k + 3 ∧ p ≠ 1) ∨ (q ≠ m + 3 ∧ q ≠ 1)) :
    Raises (calc_rest_sed_sfh_table_lognormal_mdf t s z sg l ag F tob c) ∧
      Raises (calc_rest_sed_sfh_table_met_table t s zt sg l ag F tob c) := by
  have hf : ¬ FluxFits (k + 3) (m + 3) F.shape := by
    rw [hF, show [p, q, w] = [] ++ [p, q, w] from rfl, FluxFits.three]
    omega
  have := C120_flux_accepted (F := F) ht hs hz hzt hsg hl hag hto hc
  simp only [if_neg hf] at this
  exact this

/-- C120: with as many metallicities as ages, a table with its first two axes exchanged is accepted in silence: the SED is
that of the transposed table. -/
theorem C120_flux_transposed_accepted {t s z sg l ag F tob c : Arr ℝ} {a b : Fin (n + 2) → ℝ} {zv sv x y : ℝ}
    {d g : Fin (k + 3) → ℝ} {f : Fin (k + 3) → Fin (k + 3) → Fin w → ℝ} (ht : Is1 t a) (hs : Is1 s b)
    (hz : Is0 z zv) (hsg : Is0 sg sv) (hl : Is1 l d) (hag : Is1 ag g) (hF : Is3 F fun j i l => f i j l)
    (hto : Is0 tob x) (hc : Is0 c y) :
    ∃ R, calc_rest_sed_sfh_table_lognormal_mdf t s z sg l ag F tob c = .ok R ∧
      Is1 R.rest_sed
        (SspWeights.calc_rest_sed_sfh_table_lognormal_mdf a b zv sv d g (fun i j l => f j i l) x y).rest_sed := by
  obtain ⟨R, h, h1, -⟩ := C119_rest_sed_lognormal ht hs hz hsg hl hag hF hto hc
  exact ⟨R, h, h1⟩

/-- C120: a table without a metallicity axis, shape `(n_ages, n_wave)`, is used for every metallicity; a single spectrum,
shape `(n_wave,)`, for every metallicity and age. -/
theorem C120_flux_missing_axes {t s z sg l ag F G tob c : Arr ℝ} {a b : Fin (n + 2) → ℝ} {zv sv x y : ℝ}
    {d : Fin (k + 3) → ℝ} {g : Fin (m + 3) → ℝ} {f : Fin (m + 3) → Fin w → ℝ} {f1 : Fin w → ℝ} (ht : Is1 t a) (hs : Is1 s b)
    (hz : Is0 z zv) (hsg : Is0 sg sv) (hl : Is1 l d) (hag : Is1 ag g) (hF : Is2 F f) (hG : Is1 G f1) (hto : Is0 tob x)
    (hc : Is0 c y) :
    (∃ R, calc_rest_sed_sfh_table_lognormal_mdf t s z sg l ag F tob c = .ok R ∧ Is1 R.rest_sed
      (SspWeights.calc_rest_sed_sfh_table_lognormal_mdf a b zv sv d g (fun _ j l => f j l) x y).rest_sed) ∧
    (∃ R, calc_rest_sed_sfh_table_lognormal_mdf t s z sg l ag G tob c = .ok R ∧ Is1 R.rest_sed
      (SspWeights.calc_rest_sed_sfh_table_lognormal_mdf a b zv sv d g (fun _ _ l => f1 l) x y).rest_sed) := by
  constructor
  · refine (ssp_weights_lognormal_ok ht hs hz hsg hl hag hto).bind fun W hW => ?_
    refine (sed_le_three_ok hW.1 ht hs hto hc (d := w) ?_).mono fun R hR => hR.1.congr fun l => ?_
    · rw [hF.1]; exact bc_flux_two (by omega) (Or.inl rfl)
    · have : ∀ (i : Fin (k + 3)) (j : Fin (m + 3)), readFlux F i j l = f j l := fun i j => by
        have e : bcIdx [m + 3, w] [i.1, j.1, l.1] = [j.1, l.1] := by
          have h1 := j.2; have h2 := l.2
          simp [bcIdx]; omega
        rw [readFlux, hF.1, e, hF.2]
      simp only [this]
      rfl
  · refine (ssp_weights_lognormal_ok ht hs hz hsg hl hag hto).bind fun W hW => ?_
    refine (sed_le_three_ok hW.1 ht hs hto hc (d := w) ?_).mono fun R hR => hR.1.congr fun l => ?_
    · rw [hG.1]; exact bc_flux_one
    · have : ∀ (i : Fin (k + 3)) (j : Fin (m + 3)), readFlux G i j l = f1 l := fun i j => by
        have e : bcIdx [w] [i.1, j.1, l.1] = [l.1] := by
          have h2 := l.2
          simp [bcIdx]; omega
        rw [readFlux, hG.1, e, hG.2]
      simp only [this]
      rfl

/-- C120: a stack of `q` flux tables, shape `(q, n_met, n_ages, n_wave)`, is accepted in silence and summed over the
*stack* and metallicity: the result has shape `(n_ages, n_wave)`. -/
theorem C120_flux_stack_wrong_axes {t s z sg l ag F tob c : Arr ℝ} {a b : Fin (n + 2) → ℝ} {zv sv x y : ℝ}
    {d : Fin (k + 3) → ℝ} {g : Fin (m + 3) → ℝ} {q : ℕ} (ht : Is1 t a) (hs : Is1 s b)
    (hz : Is0 z zv) (hsg : Is0 sg sv) (hl : Is1 l d) (hag : Is1 ag g) (hF : F.shape = [q, k + 3, m + 3, w])
    (hto : Is0 tob x) (hc : Is0 c y) :
    ∃ R, calc_rest_sed_sfh_table_lognormal_mdf t s z sg l ag F tob c = .ok R ∧
      Is2 R.rest_sed fun (j : Fin (m + 3)) (l : Fin w) =>
        (∑ p : Fin q, ∑ i : Fin (k + 3), F.dat [p, i, j, l] *
          (SspWeights.calc_ssp_weights_sfh_table_lognormal_mdf a b zv sv d g x).weights i j) *
        SspWeights.mstar_obs a b x y :=
  (ssp_weights_lognormal_ok ht hs hz hsg hl hag hto).bind fun _ hW =>
    sed_more_ok (by omega) (by omega) hW.1 ht hs hto hc hF

/-! ### C120: the tables of the galaxy and the grids of the SSPs -/

/-- C120: a table of times that is not one-dimensional raises, whatever the other arguments are. -/
theorem C120_time_table_raises {t : Arr ℝ} (h : ∀ N, t.shape ≠ [N]) (s z sg l ag F tob c : Arr ℝ) :
    Raises (calc_age_weights_from_sfh_table t s ag tob c) ∧
    Raises (calc_ssp_weights_sfh_table_lognormal_mdf t s z sg l ag tob) ∧
    Raises (calc_ssp_weights_sfh_table_met_table t s z sg l ag tob) ∧
    Raises (calc_rest_sed_sfh_table_lognormal_mdf t s z sg l ag F tob c) ∧
    Raises (calc_rest_sed_sfh_table_met_table t s z sg l ag F tob c) :=
  ⟨age_weights_raises_t h, Raises.bind (age_weights_raises_t h), Raises.bind (age_weights_raises_t h),
   Raises.bind (Raises.bind (age_weights_raises_t h)), Raises.bind (Raises.bind (age_weights_raises_t h))⟩

/-- C120: so does a grid of SSP ages that is not one-dimensional. -/
theorem C120_age_grid_raises {ag : Arr ℝ} (h : ∀ N, ag.shape ≠ [N]) (t s z sg l F tob c : Arr ℝ) :
    Raises (calc_age_weights_from_sfh_table t s ag tob c) ∧
    Raises (calc_ssp_weights_sfh_table_lognormal_mdf t s z sg l ag tob) ∧
    Raises (calc_ssp_weights_sfh_table_met_table t s z sg l ag tob) ∧
    Raises (calc_rest_sed_sfh_table_lognormal_mdf t s z sg l ag F tob c) ∧
    Raises (calc_rest_sed_sfh_table_met_table t s z sg l ag F tob c) :=
  ⟨age_weights_raises_ages h, Raises.bind (age_weights_raises_ages h), Raises.bind (age_weights_raises_ages h),
   Raises.bind (Raises.bind (age_weights_raises_ages h)), Raises.bind (Raises.bind (age_weights_raises_ages h))⟩

/-- C120: and a grid of SSP metallicities that is not one-dimensional. -/
theorem C120_lgmet_grid_raises {l : Arr ℝ} (h : ∀ N, l.shape ≠ [N]) (t s z sg ag F tob c : Arr ℝ) :
    Raises (calc_lgmet_weights_from_lognormal_mdf z sg l) ∧
    Raises (calc_lgmet_weights_from_lgmet_table t z sg l ag tob) ∧
    Raises (calc_rest_sed_sfh_table_lognormal_mdf t s z sg l ag F tob c) ∧
    Raises (calc_rest_sed_sfh_table_met_table t s z sg l ag F tob c) := by
  have h1 : Raises (calc_lgmet_weights_from_lognormal_mdf z sg l) := Raises.bind (get_bin_edges_raises h _ _)
  have h2 : Raises (calc_lgmet_weights_from_lgmet_table t z sg l ag tob) :=
    Raises.bind' fun _ _ => Raises.bind (get_bin_edges_raises h _ _)
  exact ⟨h1, h2, Raises.bind (Raises.bind' fun _ _ => Raises.bind h1),
    Raises.bind (Raises.bind' fun _ _ => Raises.bind h2)⟩

/-- C120: a star formation history is accepted iff it has one value per time, or is a scalar or a single value, in which
case it is that constant history; anything else — a longer or shorter table, a batch of histories — raises. -/
theorem C120_sfr_table {t s ag tob c : Arr ℝ} {a : Fin (n + 2) → ℝ} {g : Fin (m + 3) → ℝ} {x y : ℝ} (ht : Is1 t a)
    (hag : Is1 ag g) (hto : Is0 tob x) (hc : Is0 c y) :
    (∀ v : ℝ, (Is0 s v ∨ Is1 s fun _ : Fin 1 => v) → ∃ r, calc_age_weights_from_sfh_table t s ag tob c = .ok r ∧
      Is1 r (StellarAgeWeights.calc_age_weights_from_sfh_table a (fun _ => v) g x y)) ∧
    ((s.shape ≠ [] ∧ s.shape ≠ [1] ∧ s.shape ≠ [n + 2]) →
      Raises (calc_age_weights_from_sfh_table t s ag tob c) ∧
      ∀ z sg l F, Raises (calc_rest_sed_sfh_table_lognormal_mdf t s z sg l ag F tob c) ∧
        Raises (calc_rest_sed_sfh_table_met_table t s z sg l ag F tob c)) := by
  refine ⟨fun v hv => ?_, fun h => ?_⟩
  · refine (logsm_ok_const ht hc hv).bind fun l hl => ?_
    refine (age_from_logsm_ok (ht.map _) hl hag hto).bind fun r hr => ?_
    exact .pure hr.2
  · have h' : ¬ (s.shape = [] ∨ s.shape = [1] ∨ s.shape = [n + 2]) := by tauto
    have h1 : ∀ c : Arr ℝ, (∃ y, Is0 c y) → Raises (calc_age_weights_from_sfh_table t s ag tob c) :=
      fun c ⟨y, hc⟩ => Raises.bind (logsm_raises_sfr ht hc h')
    exact ⟨h1 c ⟨y, hc⟩, fun z sg l F => ⟨Raises.bind (Raises.bind (h1 _ ⟨_, Is0.scal _⟩)),
      Raises.bind (Raises.bind (h1 _ ⟨_, Is0.scal _⟩))⟩⟩

/-- C120: a metallicity table that has not the shape of the table of times raises, whatever the other arguments are. -/
theorem C120_lgmet_table_raises {t z : Arr ℝ} (h : t.shape ≠ z.shape) (s sg l ag F tob c : Arr ℝ) :
    Raises (calc_lgmet_weights_from_lgmet_table t z sg l ag tob) ∧
    Raises (calc_ssp_weights_sfh_table_met_table t s z sg l ag tob) ∧
    Raises (calc_rest_sed_sfh_table_met_table t s z sg l ag F tob c) := by
  have h0 : Raises (calc_lgmet_weights_from_lgmet_table t z sg l ag tob) := by
    refine Raises.bind (Raises.bind' fun b _ => ?_)
    have : (map Jnp.log10 t).shape ≠ z.shape := h
    simp [interp, this, Raises]
  exact ⟨h0, Raises.bind' fun _ _ => Raises.bind h0, Raises.bind (Raises.bind' fun _ _ => Raises.bind h0)⟩

/-! ### C120: batches of observation times and metallicities -/

/-- C120: `calc_age_weights_from_sfh_table` accepts an array `t_obs` iff its last axis has length one (then broadcast against
the ages). -/
theorem C120_t_obs_accepted {t s ag tob c : Arr ℝ} {a b : Fin (n + 2) → ℝ} {g : Fin (m + 3) → ℝ} {y : ℝ} {pre : List ℕ}
    {q : ℕ} (ht : Is1 t a) (hs : Is1 s b) (hag : Is1 ag g) (hto : tob.shape = pre ++ [q]) (hc : Is0 c y) :
    (q ≠ 1 → Raises (calc_age_weights_from_sfh_table t s ag tob c)) ∧
    (q = 1 → HasShape (calc_age_weights_from_sfh_table t s ag tob c) (pre ++ [m + 3])) := by
  refine ⟨fun h => age_weights_raises_tobs hag hto h, ?_⟩
  rintro rfl
  exact (age_weights_rows ht hs hag hto hc).mono fun r hr => by obtain ⟨d, -, h⟩ := hr; exact h.1

/-- C120: the column of times `(q, 1)` is *not* treated galaxy by galaxy: the weights are normalised over the whole batch.
For `q` copies of one time each row is the documented weights divided by `q`. -/
theorem C120_t_obs_batch_normalisation {t s ag tob c : Arr ℝ} {a b : Fin (n + 2) → ℝ} {g : Fin (m + 3) → ℝ} {x y : ℝ} {q : ℕ}
    (ht : Is1 t a) (hs : Is1 s b) (hag : Is1 ag g) (hto : Is2 tob fun (_ : Fin q) (_ : Fin 1) => x) (hc : Is0 c y) :
    ∃ r, calc_age_weights_from_sfh_table t s ag tob c = .ok r ∧
      Is2 r fun (_ : Fin q) j => StellarAgeWeights.calc_age_weights_from_sfh_table a b g x y j / q := by
  refine (age_weights_rows (pre := [q]) ht hs hag hto.1 hc).mono fun r hr => ?_
  obtain ⟨d, hd, hr⟩ := hr
  have ht0 : ∀ i : Fin q, tob.dat ([i.1] ++ [0]) = x := fun i => hto.2 i 0
  have hrow : ∀ i : Fin q, List.Forall₂ (· < ·) [i.1] [q] := fun i => .cons i.2 .nil
  refine ⟨hr.1, fun i j => ?_⟩
  have h1 := hr.2 [i.1] (hrow i) j
  simp only [ht0 i] at h1
  refine h1.trans ?_
  have h2 : sumShape ([q] ++ [m + 3]) d.dat = q * ∑ j, formed (fun i => Jnp.log10 (a i))
      (StellarAgeWeights.calc_logsm_table_from_sfh_table a b y) g x j := by
    simp only [List.cons_append, List.nil_append, sumShape, sum_range_fin]
    have : ∀ (i : Fin q) (j : Fin (m + 3)), d.dat [i.1, j.1] = formed (fun i => Jnp.log10 (a i))
        (StellarAgeWeights.calc_logsm_table_from_sfh_table a b y) g x j := fun i j => by
      have := hd.2 [i.1] (hrow i) j
      simp only [ht0 i] at this
      exact this
    simp only [this, Finset.sum_const, Finset.card_univ, Fintype.card_fin, nsmul_eq_mul]
  rw [h2, mul_comm, ← div_div]
  rfl

/-- C120: the SED functions do not compute a batch of times: with a flux table of the documented shape, an array `t_obs` with
any number of entries other than one raises. -/
theorem C120_sed_t_obs_batch_raises {t s z sg l ag F tob c : Arr ℝ} {a b : Fin (n + 2) → ℝ} {zv sv : ℝ}
    {d : Fin (k + 3) → ℝ} {g : Fin (m + 3) → ℝ} (ht : Is1 t a) (hs : Is1 s b) (hz : Is0 z zv) (hsg : Is0 sg sv)
    (hl : Is1 l d) (hag : Is1 ag g) (hF : F.shape = [k + 3, m + 3, w]) (hto : tob.shape ≠ []) (hp : tob.shape.prod ≠ 1) :
    Raises (calc_rest_sed_sfh_table_lognormal_mdf t s z sg l ag F tob c) := by
  obtain ⟨pre, q, hpre⟩ : ∃ pre q, tob.shape = pre ++ [q] :=
    ⟨_, _, (List.dropLast_append_getLast hto).symm⟩
  by_cases hq : q = 1
  · subst hq
    obtain ⟨A, eA, hA⟩ := age_weights_rows ht hs hag hpre (Is0.scal SFR_MIN)
    obtain ⟨_, -, hA⟩ := hA
    obtain ⟨L, eL, hL⟩ := lognormal_met_ok hz hsg hl
    have sA : size A = pre.prod * (m + 3) := by rw [size, hA.1]; simp
    have hpp : pre.prod ≠ 1 := by rw [hpre] at hp; simpa using hp
    have hne : pre.prod * (m + 3) ≠ m + 3 := by
      intro e
      apply hpp
      have : pre.prod * (m + 3) = 1 * (m + 3) := by rw [e, one_mul]
      exact Nat.eq_of_mul_eq_mul_right (by omega) this
    have hne1 : pre.prod * (m + 3) ≠ 1 := by
      intro e
      have := Nat.eq_one_of_dvd_one (e ▸ Dvd.intro_left _ rfl : m + 3 ∣ 1)
      omega
    refine lognormal_sed_raises_sizes eA eL (by rw [size_1 hL]; omega) (by rw [sA]; exact hne1) ?_
    rw [hF, size_1 hL, sA, show [k + 3, m + 3, w] = [] ++ [k + 3, m + 3, w] from rfl, FluxFits.three]
    omega
  · exact Raises.bind (Raises.bind (age_weights_raises_tobs hag hpre hq))

/-- C120: nor a batch of metallicities: with a flux table of the documented shape, a `gal_lgmet` (or a `gal_lgmet_scatter`)
with `q ≠ 1` entries raises — the docstring of `calc_rest_sed_sfh_table_lognormal_mdf` announces `gal_lgmet` as an array
of shape `(n_t,)`. -/
theorem C120_lgmet_batch_raises {t s z sg l ag F tob c : Arr ℝ} {a b : Fin (n + 2) → ℝ} {zv sv x : ℝ} {q : ℕ}
    {d : Fin (k + 3) → ℝ} {g : Fin (m + 3) → ℝ} (ht : Is1 t a) (hs : Is1 s b) (hl : Is1 l d) (hag : Is1 ag g)
    (hF : F.shape = [k + 3, m + 3, w]) (hto : Is0 tob x) (hq : q ≠ 1)
    (hz : (z.shape = [q] ∧ Is0 sg sv) ∨ (Is0 z zv ∧ sg.shape = [q])) :
    Raises (calc_rest_sed_sfh_table_lognormal_mdf t s z sg l ag F tob c) := by
  obtain ⟨e, ee, he⟩ := get_bin_edges_ok hl LGMET_LO LGMET_HI
  have hsh : bcShape z.shape sg.shape = .ok [q] := by
    rcases hz with ⟨h1, h2⟩ | ⟨h1, h2⟩
    · rw [h1, h2.1]; exact bcShape_nil_right _
    · rw [h1.1, h2]; exact bcShape_nil_left _
  have hx : z.shape = [q] ∨ z.shape = [] := by
    rcases hz with ⟨h1, -⟩ | ⟨h1, -⟩
    · exact Or.inl h1
    · exact Or.inr h1.1
  obtain ⟨A, eA, hA⟩ := age_weights_ok ht hs hag hto (Is0.scal SFR_MIN)
  have hL : calc_lgmet_weights_from_lognormal_mdf z sg l = get_lgmet_weights_singlegal z sg e := by
    unfold calc_lgmet_weights_from_lognormal_mdf
    rw [ee]; rfl
  rcases singlegal_vec (by omega) hq he hsh hx with h | ⟨L, eL, hLs⟩
  · refine Raises.bind ?_
    unfold calc_ssp_weights_sfh_table_lognormal_mdf
    have hA' : Ok (calc_age_weights_from_sfh_table t s ag tob) (· = A) := ⟨A, eA, rfl⟩
    exact hA'.raises fun A' _ => Raises.bind (hL ▸ h)
  · have sL : size L = (k + 3) * (k + 3) := by rw [size, hLs]; simp
    have h9 : 3 * (k + 3) ≤ (k + 3) * (k + 3) := Nat.mul_le_mul_right _ (by omega)
    refine lognormal_sed_raises_sizes eA (hL.trans eL) (by rw [sL]; omega) (by rw [size_1 hA]; omega) ?_
    rw [hF, size_1 hA, sL, show [k + 3, m + 3, w] = [] ++ [k + 3, m + 3, w] from rfl, FluxFits.three]
    omega

end

/-! ### Concrete cases -/

section Examples

/-- a concrete call: 3 times, 4 ages, 3 metallicities, 5 wavelengths -/
noncomputable def exT : Arr ℝ := ⟨[3], fun i => i.headD 0 + 1⟩
noncomputable def exS : Arr ℝ := ⟨[3], fun _ => 2⟩
noncomputable def exAges : Arr ℝ := ⟨[4], fun i => i.headD 0 - 2⟩
noncomputable def exLgmet : Arr ℝ := ⟨[3], fun i => i.headD 0 - 3⟩
noncomputable def exFlux : Arr ℝ := ⟨[3, 4, 5], fun i => i.headD 0 + i.getLastD 0⟩

theorem exT_is : Is1 exT (fun i : Fin (1 + 2) => (i : ℝ) + 1) := ⟨rfl, fun _ => rfl⟩
theorem exS_is : Is1 exS (fun _ : Fin (1 + 2) => 2) := ⟨rfl, fun _ => rfl⟩
theorem exAges_is : Is1 exAges (fun i : Fin (1 + 3) => (i : ℝ) - 2) := ⟨rfl, fun _ => rfl⟩
theorem exLgmet_is : Is1 exLgmet (fun i : Fin (0 + 3) => (i : ℝ) - 3) := ⟨rfl, fun _ => rfl⟩
theorem exFlux_is : Is3 exFlux (fun (i : Fin (0 + 3)) (_ : Fin (1 + 3)) (l : Fin 5) => (i : ℝ) + l) :=
  ⟨rfl, fun _ _ _ => rfl⟩

variable [Jnp.Dtype] [Edge]

/-- C119 on that call: the SED has shape `(5,)`, the weights `(3, 4)` -/
example : ∃ R, calc_rest_sed_sfh_table_lognormal_mdf exT exS (scal (-2)) (scal 0.2) exLgmet exAges exFlux (scal 3) = .ok R ∧
    R.rest_sed.shape = [5] ∧ R.weights.shape = [3, 4] := by
  obtain ⟨R, h, h1, h2, -⟩ := C119_rest_sed_lognormal exT_is exS_is (Is0.scal _) (Is0.scal _) exLgmet_is exAges_is exFlux_is
    (Is0.scal 3) (Is0.scal SFR_MIN)
  exact ⟨R, h, h1.1, h2.1⟩

/-- C119, metallicity table -/
example : ∃ R, calc_rest_sed_sfh_table_met_table exT exS exT (scal 0.2) exLgmet exAges exFlux (scal 3) = .ok R ∧
    R.rest_sed.shape = [5] ∧ R.lgmet_weights.shape = [3, 4] := by
  obtain ⟨R, h, h1, -, h2, -⟩ := C119_rest_sed_met_table exT_is exS_is exT_is (Is0.scal _) exLgmet_is exAges_is exFlux_is
    (Is0.scal 3) (Is0.scal SFR_MIN)
  exact ⟨R, h, h1.1, h2.1⟩

/-- C120: the same call with the flux table transposed raises -/
example : Raises (calc_rest_sed_sfh_table_lognormal_mdf exT exS (scal (-2)) (scal 0.2) exLgmet exAges
    ⟨[4, 3, 5], fun _ => 1⟩ (scal 3)) :=
  (C120_flux_wrong_count_raises exT_is exS_is (Is0.scal _) exT_is (Is0.scal _) exLgmet_is exAges_is (Is0.scal 3)
    (Is0.scal SFR_MIN) rfl (Or.inl ⟨by norm_num, by norm_num⟩)).1

/-- C120: two flux tables stacked are accepted and give an array of shape `(4, 5)` -/
example : ∃ R, calc_rest_sed_sfh_table_lognormal_mdf exT exS (scal (-2)) (scal 0.2) exLgmet exAges
    ⟨[2, 3, 4, 5], fun _ => 1⟩ (scal 3) = .ok R ∧ R.rest_sed.shape = [4, 5] := by
  obtain ⟨R, h, h1⟩ := C120_flux_stack_wrong_axes (F := ⟨[2, 3, 4, 5], fun _ => 1⟩) exT_is exS_is (Is0.scal (-2)) (Is0.scal 0.2)
    exLgmet_is exAges_is rfl (Is0.scal 3) (Is0.scal SFR_MIN)
  exact ⟨R, h, h1.1⟩

/-- C120: two galaxies' histories in one array raise -/
example : Raises (calc_age_weights_from_sfh_table exT ⟨[2, 3], fun _ => 1⟩ exAges (scal 3)) :=
  ((C120_sfr_table (s := ⟨[2, 3], fun _ => 1⟩) exT_is exAges_is (Is0.scal 3) (Is0.scal SFR_MIN)).2
    ⟨by simp, by simp, by simp⟩).1

/-- C120: a metallicity table with two entries for three times raises -/
example : Raises (calc_lgmet_weights_from_lgmet_table exT ⟨[2], fun _ => -2⟩ (scal 0.2) exLgmet exAges (scal 3)) :=
  (C120_lgmet_table_raises (by simp [exT]) exS _ _ _ exFlux _ (scal 0)).1

/-- C120: two observation times in one array raise in the SED function; as a column they are accepted by the age weights -/
example : Raises (calc_rest_sed_sfh_table_lognormal_mdf exT exS (scal (-2)) (scal 0.2) exLgmet exAges exFlux
      ⟨[2, 1], fun _ => 3⟩) ∧
    HasShape (calc_age_weights_from_sfh_table exT exS exAges ⟨[2, 1], fun _ => 3⟩) [2, 4] :=
  ⟨C120_sed_t_obs_batch_raises exT_is exS_is (Is0.scal _) (Is0.scal _) exLgmet_is exAges_is rfl (by simp) (by simp),
   (C120_t_obs_accepted (pre := [2]) (q := 1) exT_is exS_is exAges_is rfl (Is0.scal SFR_MIN)).2 rfl⟩

/-- C120: a metallicity per time, as the docstring asks for, raises -/
example : Raises (calc_rest_sed_sfh_table_lognormal_mdf exT exS exT (scal 0.2) exLgmet exAges exFlux (scal 3)) :=
  C120_lgmet_batch_raises (q := 3) (zv := 0) exT_is exS_is exLgmet_is exAges_is rfl (Is0.scal 3) (by norm_num)
    (Or.inl ⟨rfl, Is0.scal 0.2⟩)

/-- C119: the weight functions on their own -/
example : HasShape (calc_age_weights_from_sfh_table exT exS exAges (scal 3)) [4] ∧
    HasShape (calc_lgmet_weights_from_lognormal_mdf (scal (-2)) (scal 0.2) exLgmet) [3] ∧
    HasShape (calc_lgmet_weights_from_lgmet_table exT exT (scal 0.2) exLgmet exAges (scal 3)) [3, 4] := by
  obtain ⟨r, e, hr⟩ := C119_age_weights exT_is exS_is exAges_is (Is0.scal 3) (Is0.scal SFR_MIN)
  obtain ⟨r', e', hr'⟩ := C119_lgmet_weights_lognormal (Is0.scal (-2)) (Is0.scal 0.2) exLgmet_is
  obtain ⟨q, f, hq⟩ := C119_lgmet_weights_table exT_is exT_is (Is0.scal 0.2) exLgmet_is
    (show Is1 exAges (fun i : Fin (3 + 1) => (i : ℝ) - 2) from ⟨rfl, fun _ => rfl⟩) (Is0.scal 3)
  exact ⟨⟨r, e, hr.1⟩, ⟨r', e', hr'.1⟩, ⟨q, f, hq.1⟩⟩

/-- C119: the joint weights -/
example : (∃ W, calc_ssp_weights_sfh_table_lognormal_mdf exT exS (scal (-2)) (scal 0.2) exLgmet exAges (scal 3) = .ok W ∧
      W.weights.shape = [3, 4]) ∧
    ∃ W, calc_ssp_weights_sfh_table_met_table exT exS exT (scal 0.2) exLgmet exAges (scal 3) = .ok W ∧ W.weights.shape = [3, 4] := by
  obtain ⟨W, e, h⟩ := C119_ssp_weights_lognormal exT_is exS_is (Is0.scal (-2)) (Is0.scal 0.2) exLgmet_is exAges_is (Is0.scal 3)
  obtain ⟨W', e', h'⟩ := C119_ssp_weights_met_table exT_is exS_is exT_is (Is0.scal 0.2) exLgmet_is exAges_is (Is0.scal 3)
  exact ⟨⟨W, e, h.1.1⟩, ⟨W', e', h'.1.1⟩⟩

/-- C120: with 3 ages and 3 metallicities the transposed table goes through; so do a table without the metallicity axis and a
single spectrum -/
example : (∃ R, calc_rest_sed_sfh_table_lognormal_mdf exT exS (scal (-2)) (scal 0.2) exLgmet exLgmet
      ⟨[3, 3, 5], fun i => i.headD 0⟩ (scal 3) = .ok R ∧ R.rest_sed.shape = [5]) ∧
    (∃ R, calc_rest_sed_sfh_table_lognormal_mdf exT exS (scal (-2)) (scal 0.2) exLgmet exAges
      ⟨[4, 5], fun i => i.headD 0⟩ (scal 3) = .ok R ∧ R.rest_sed.shape = [5]) ∧
    (∃ R, calc_rest_sed_sfh_table_lognormal_mdf exT exS (scal (-2)) (scal 0.2) exLgmet exAges
      ⟨[5], fun i => i.headD 0⟩ (scal 3) = .ok R ∧ R.rest_sed.shape = [5]) := by
  obtain ⟨R, e, h⟩ := C120_flux_transposed_accepted (F := ⟨[3, 3, 5], fun i => i.headD 0⟩) (w := 5)
    (f := fun _ j _ => ((j : ℕ) : ℝ)) exT_is exS_is (Is0.scal (-2)) (Is0.scal 0.2) exLgmet_is exLgmet_is
    ⟨rfl, fun _ _ _ => rfl⟩ (Is0.scal 3) (Is0.scal SFR_MIN)
  obtain ⟨⟨R2, e2, h2⟩, ⟨R3, e3, h3⟩⟩ := C120_flux_missing_axes (F := ⟨[4, 5], fun i => i.headD 0⟩) (G := ⟨[5], fun i => i.headD 0⟩)
    (w := 5) (f := fun j _ => ((j : ℕ) : ℝ)) (f1 := fun l => ((l : ℕ) : ℝ)) exT_is exS_is (Is0.scal (-2)) (Is0.scal 0.2) exLgmet_is
    exAges_is ⟨rfl, fun _ _ => rfl⟩ ⟨rfl, fun _ => rfl⟩ (Is0.scal 3) (Is0.scal SFR_MIN)
  exact ⟨⟨R, e, h.1⟩, ⟨R2, e2, h2.1⟩, ⟨R3, e3, h3.1⟩⟩

/-- C120: a two-dimensional time table, age grid or metallicity grid raises -/
example : Raises (calc_rest_sed_sfh_table_lognormal_mdf ⟨[2, 3], fun _ => 1⟩ exS (scal (-2)) (scal 0.2) exLgmet exAges exFlux (scal 3)) ∧
    Raises (calc_rest_sed_sfh_table_lognormal_mdf exT exS (scal (-2)) (scal 0.2) exLgmet ⟨[2, 4], fun _ => 1⟩ exFlux (scal 3)) ∧
    Raises (calc_rest_sed_sfh_table_lognormal_mdf exT exS (scal (-2)) (scal 0.2) (scal 0) exAges exFlux (scal 3)) :=
  ⟨(C120_time_table_raises (by simp) ..).2.2.2.1, (C120_age_grid_raises (by simp) ..).2.2.2.1,
   (C120_lgmet_grid_raises (by simp [scal]) ..).2.2.1⟩

/-- C120: two equal observation times in a column: each row of the age weights sums to one half -/
example : ∃ r, calc_age_weights_from_sfh_table exT exS exAges ⟨[2, 1], fun _ => 3⟩ = .ok r ∧
    Is2 r fun (_ : Fin 2) j => StellarAgeWeights.calc_age_weights_from_sfh_table (fun i : Fin (1 + 2) => (i : ℝ) + 1) (fun _ => 2)
      (fun i : Fin (1 + 3) => (i : ℝ) - 2) 3 SFR_MIN j / (2 : ℕ) :=
  C120_t_obs_batch_normalisation (q := 2) exT_is exS_is exAges_is ⟨rfl, fun _ _ => rfl⟩ (Is0.scal SFR_MIN)

end Examples

end Dsps.Props
