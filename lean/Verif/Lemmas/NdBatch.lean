import Verif.Lemmas.NdArgs

/-! Batched metallicities and batched observation times in the SED functions. -/
namespace Dsps.NdSed
open Nd Py Dsps.Constants

variable [Jnp.Dtype] [Edge] {n m k w : ℕ}

theorem Is2.of_shape {α : Type} {a : Arr α} {p q : ℕ} (h : a.shape = [p, q]) :
    Is2 a fun (i : Fin p) (j : Fin q) => a.dat [i, j] := ⟨h, fun _ _ => rfl⟩

theorem map2_shape_ok {α β γ : Type} {f : α → β → γ} {a : Arr α} {b : Arr β} {s : List ℕ}
    (h : bcShape a.shape b.shape = .ok s) : Ok (map2 f a b) fun r => r.shape = s := ⟨_, map2_shape h, rfl⟩

theorem reshape_row_any {α : Type} (a : Arr α) : Ok (reshape a [some 1, none]) fun r => r.shape = [1, size a] := by
  refine ⟨⟨[1, size a], fun i => a.dat (unravel a.shape (ravel [1, size a] i))⟩, ?_, rfl⟩
  simp [reshape]

theorem reshape_col_any {α : Type} (a : Arr α) : Ok (reshape a [none, some 1]) fun r => r.shape = [size a, 1] := by
  refine ⟨⟨[size a, 1], fun i => a.dat (unravel a.shape (ravel [size a, 1] i))⟩, ?_, rfl⟩
  simp [reshape]

theorem sed_raises_shape {W : SSPWeights} {p q : ℕ} {t s flux tob c : Arr ℝ} (hp : p ≠ 1) (hq : q ≠ 1)
    (hW : W.weights.shape = [p, q]) (hf : ¬ FluxFits p q flux.shape) : Raises (sed_from_weights W t s flux tob c) :=
  sed_raises hp hq (Is2.of_shape hW) hf

/-- lognormal SED whose two weight factors do not have the sizes of the flux table's axes -/
theorem lognormal_sed_raises_sizes {t s z sg l ag flux tob c A L : Arr ℝ}
    (hA : calc_age_weights_from_sfh_table t s ag tob = .ok A)
    (hL : calc_lgmet_weights_from_lognormal_mdf z sg l = .ok L) (h1 : size L ≠ 1) (h2 : size A ≠ 1)
    (hf : ¬ FluxFits (size L) (size A) flux.shape) :
    Raises (calc_rest_sed_sfh_table_lognormal_mdf t s z sg l ag flux tob c) := by
  unfold calc_rest_sed_sfh_table_lognormal_mdf calc_ssp_weights_sfh_table_lognormal_mdf
  rw [hA, hL]
  obtain ⟨cc, ec, hc⟩ := reshape_col_any L
  obtain ⟨r, er, hr⟩ := reshape_row_any A
  obtain ⟨v, ev, hv⟩ := map2_outer (f := fun x y : ℝ => x * y) (Is2.of_shape hc) (Is2.of_shape hr)
  have ew := map2_any0 (f := fun x y : ℝ => x / y) (a := v) (b := sumAll v) (y := sumShape v.shape v.dat) ⟨rfl, rfl⟩
  simp only [bind, Except.bind, ec, er, ev, ew, pure, Except.pure]
  exact sed_raises_shape h1 h2 hv.1 hf

/-! ### A batch of metallicities -/

theorem tw_cuml_kern_vec {x mm h : Arr ℝ} {b : ℝ} {q : ℕ} (hm : Is0 mm b) (hs : bcShape x.shape h.shape = .ok [q]) :
    Ok (tw_cuml_kern x mm h) fun r => r.shape = [q] := by
  refine Ok.bind ⟨_, map2_any0 hm, rfl⟩ fun d hd => ?_
  refine (map2_shape_ok (s := [q]) (by rw [← hd]; exact hs)).bind fun z hz => ?_
  refine (where_sc (Is0.scal 0) (c := map (· < -3) z)
    (b := map (fun z => -5 * z ^ 7 / 69984 + 7 * z ^ 5 / 2592 - 35 * z ^ 3 / 864 + 35 * z / 96 + 1 / 2) z) rfl).bind
    fun v hv => ?_
  refine (where_sc (Is0.scal 1) (c := map (· > 3) z) (by simp [map] at hv ⊢; exact hv.symm)).mono fun r hr => ?_
  rw [hr, hv]
  exact hz

theorem triweighted_vec {x s bins : Arr ℝ} {q : ℕ} {e : Fin (k + 2) → ℝ} (he : Is1 bins e)
    (hs : bcShape x.shape s.shape = .ok [q]) : Ok (triweighted_histogram x s bins) fun r => r.shape = [k + 1, q] := by
  refine (sliceInit_1 he).bind fun lo hlo => ?_
  refine (sliceTail_1 he).bind fun hi hhi => ?_
  have : Ok (triweighted_histogram_kernel x s (row lo [] 0) (row hi [] 0)) fun r => r.shape = [q] := by
    refine (tw_cuml_kern_vec (b := lo.dat [0]) ⟨rfl, rfl⟩ hs).bind fun u hu => ?_
    refine (tw_cuml_kern_vec (b := hi.dat [0]) ⟨rfl, rfl⟩ hs).bind fun v hv => ?_
    exact map2_shape_ok (by rw [hu, hv]; exact bcShape_self _)
  obtain ⟨r0, e0, h0⟩ := this
  exact ⟨_, vmapTwo_eq hlo.1 hhi.1 e0, by rw [h0]⟩

theorem bc_col {k q : ℕ} : bcShape [k, q] [q] = .ok [k, q] := by simp [bcShape, bcRev, Except.map]

theorem all0_vec {a : Arr Prop} {p q : ℕ} (h : a.shape = [p, q]) : Ok (all0 a) fun r => r.shape = [q] :=
  ⟨_, by rw [all0, h], rfl⟩

theorem sum0_vec {a : Arr ℝ} {p q : ℕ} (h : a.shape = [p, q]) : Ok (sum0 a) fun r => r.shape = [q] :=
  ⟨_, by rw [sum0, h], rfl⟩

/-- the weights of a batch of `q` metallicities raise, or form a square -/
theorem singlegal_vec {x s bins : Arr ℝ} {q : ℕ} {e : Fin (k + 2) → ℝ} (hk : k ≠ 0) (hq : q ≠ 1) (he : Is1 bins e)
    (hs : bcShape x.shape s.shape = .ok [q]) (hx : x.shape = [q] ∨ x.shape = []) :
    Raises (get_lgmet_weights_singlegal x s bins) ∨
      Ok (get_lgmet_weights_singlegal x s bins) fun r => r.shape = [k + 1, k + 1] := by
  have key : ∀ {β : Type} {r : Except PyErr (Arr ℝ)} {g : Arr ℝ → Except PyErr β} {Q : Arr ℝ → Prop} {Q' : β → Prop},
      Ok r Q → (∀ a, Q a → Raises (g a) ∨ Ok (g a) Q') → Raises (r >>= g) ∨ Ok (r >>= g) Q' := by
    rintro β r g Q Q' ⟨a, rfl, ha⟩ hg
    exact hg a ha
  have keyP : ∀ {β : Type} {r : Except PyErr (Arr Prop)} {g : Arr Prop → Except PyErr β} {Q : Arr Prop → Prop}
      {Q' : β → Prop}, Ok r Q → (∀ a, Q a → Raises (g a) ∨ Ok (g a) Q') → Raises (r >>= g) ∨ Ok (r >>= g) Q' := by
    rintro β r g Q Q' ⟨a, rfl, ha⟩ hg
    exact hg a ha
  have hxb : bcShape [q] x.shape = .ok [q] := by rcases hx with h | h <;> simp [h]
  refine key (triweighted_vec he hs) fun t ht => ?_
  refine key (sum0_vec ht) fun ts hts => ?_
  refine key (where_sc (Is0.scal 1.0) (c := map (· = 0) ts) rfl) fun tn htn => ?_
  refine key (map2_shape_ok (s := [k + 1, q]) (by rw [ht, htn, hts]; exact bc_col)) fun wt hwt => ?_
  unfold fill_empty_weights_singlepoint
  refine keyP (all0_vec (by simp only [map]; exact hwt)) fun z hz => ?_
  refine key (idx_1 he 0) fun e0 he0 => ?_
  refine keyP ⟨_, map2_any0 he0, rfl⟩ fun lm hlm => ?_
  refine key (idxLast_1 he) fun e1 he1 => ?_
  refine keyP ⟨_, map2_any0 he1, rfl⟩ fun hm hhm => ?_
  rw [size_1 he]
  refine key (setFirst_1 (zeros1_1 (k + 1)) (Is0.scal 1.0)) fun lr hlr => ?_
  refine key (setLast_1 (zeros1_1 (k + 1)) (Is0.scal 1.0)) fun hr hhr => ?_
  refine keyP (map2_shape_ok (s := [q]) (by rw [hz, ← hlm]; exact hxb)) fun c hc => ?_
  by_cases hkq : q = k + 1
  · right
    have hsq : ∀ (c : Arr Prop) (a b : Arr ℝ), c.shape = [q] → a.shape = [k + 1] → b.shape = [k + 1, q] →
        Ok (where_ c a b) fun r => r.shape = [k + 1, q] := by
      intro c a b hc ha hb
      have e1 : bcShape [k + 1] [k + 1, q] = .ok [k + 1, q] := by subst hkq; simp [bcShape, bcRev, Except.map]
      have e2 : bcShape [q] [k + 1, q] = .ok [k + 1, q] := by simp [bcShape, bcRev, Except.map]
      refine (map2_shape_ok (s := [k + 1, q]) (by rw [ha, hb]; exact e1)).bind fun ab hab => ?_
      exact map2_shape_ok (by rw [hc, hab]; exact e2)
    refine (hsq c lr wt hc hlr.1 hwt).bind fun w' hw' => ?_
    refine (map2_shape_ok (s := [q]) (by rw [hz, ← hhm]; exact hxb)).bind fun c' hc' => ?_
    refine (hsq c' hr w' hc' hhr.1 hw').mono fun r hr => ?_
    rw [hr, hkq]
  · left
    refine Raises.bind (Raises.bind (map2_raises ⟨.typeError, ?_⟩))
    rw [hlr.1, hwt]
    have h1 : k + 1 ≠ q := fun h => hkq h.symm
    have h3 : k + 1 ≠ 1 := by omega
    simp [bcShape, bcRev, Except.map, h1, hq, hk]

end Dsps.NdSed
