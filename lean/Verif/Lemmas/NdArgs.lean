import Verif.Lemmas.NdFlux

/-! The other arguments of the SED pipeline with undocumented shapes. -/
namespace Dsps.NdSed
open Nd Py Dsps.Constants

variable [Jnp.Dtype] [Edge] {n m k w : ℕ}

/-! ### Shapes survive elementwise steps -/

theorem where_sc {c : Arr Prop} {a b : Arr ℝ} {x : ℝ} (ha : Is0 a x) (hs : c.shape = b.shape) :
    Ok (where_ c a b) fun r => r.shape = b.shape := by
  refine Ok.bind ⟨_, map2_0any ha, rfl⟩ fun ab hab => ?_
  subst hab
  exact ⟨_, map2_shape (by simp only []; rw [hs]; exact bcShape_self _), rfl⟩

theorem setSlice_shape {a v r : Arr ℝ} {lo len : ℕ} (h : setSlice a lo len v = .ok r) : r.shape = a.shape := by
  unfold setSlice at h
  split at h
  · split at h
    · cases h; rfl
    · cases h
  · cases h

theorem setFirst_shape {a v r : Arr ℝ} (h : setFirst a v = .ok r) : r.shape = a.shape := by
  unfold setFirst at h
  split at h
  · split at h
    · cases h; rfl
    · cases h
  · cases h

theorem setLast_shape {a v r : Arr ℝ} (h : setLast a v = .ok r) : r.shape = a.shape := by
  unfold setLast at h
  split at h
  · split at h
    · cases h; rfl
    · cases h
  · cases h

theorem bind_ok {α β : Type} {r : Except PyErr α} {k : α → Except PyErr β} {b : β} (h : (r >>= k) = .ok b) :
    ∃ a, r = .ok a ∧ k a = .ok b := by
  cases r with
  | error e => cases h
  | ok a => exact ⟨a, rfl, h⟩

theorem jax_get_dt_array_shape {t r : Arr ℝ} (h : jax_get_dt_array t = .ok r) : r.shape = t.shape := by
  unfold jax_get_dt_array at h
  obtain ⟨_, _, h⟩ := bind_ok h
  obtain ⟨_, _, h⟩ := bind_ok h
  obtain ⟨_, _, h⟩ := bind_ok h
  obtain ⟨_, _, h⟩ := bind_ok h
  obtain ⟨d1, h1, h⟩ := bind_ok h
  obtain ⟨_, _, h⟩ := bind_ok h
  obtain ⟨_, _, h⟩ := bind_ok h
  obtain ⟨_, _, h⟩ := bind_ok h
  obtain ⟨_, _, h⟩ := bind_ok h
  obtain ⟨_, _, h⟩ := bind_ok h
  obtain ⟨_, _, h⟩ := bind_ok h
  obtain ⟨_, _, h⟩ := bind_ok h
  obtain ⟨_, _, h⟩ := bind_ok h
  obtain ⟨_, _, h⟩ := bind_ok h
  obtain ⟨d2, h2, h⟩ := bind_ok h
  obtain ⟨_, _, h⟩ := bind_ok h
  obtain ⟨_, _, h⟩ := bind_ok h
  rw [setLast_shape h, setFirst_shape h2, setSlice_shape h1]
  rfl

theorem bcRev_length {a b r : List ℕ} (h : bcRev a b = .ok r) : r.length = max a.length b.length := by
  induction a generalizing b r with
  | nil => simp only [bcRev, Except.ok.injEq] at h; simp [h]
  | cons x a ih =>
    cases b with
    | nil => simp only [bcRev, Except.ok.injEq] at h; simp [← h]
    | cons y b =>
      simp only [bcRev] at h
      have : ∀ d, (bcRev a b).map (d :: ·) = .ok r → r.length = max a.length b.length + 1 := by
        intro d hd
        cases hab : bcRev a b with
        | error e => rw [hab] at hd; cases hd
        | ok r' => rw [hab] at hd; cases hd; simp [ih hab]
      split_ifs at h
      · rw [this _ h]; simp
      · rw [this _ h]; simp

theorem bcShape_length {a b r : List ℕ} (h : bcShape a b = .ok r) : r.length = max a.length b.length := by
  unfold bcShape at h
  cases hab : bcRev a.reverse b.reverse with
  | error e => rw [hab] at h; cases h
  | ok r' => rw [hab] at h; cases h; simp [bcRev_length hab]

/-- a value with more dimensions than the slice it is written to raises -/
theorem broadcastTo_rank {α : Type} {a : Arr α} {s : List ℕ} (h : s.length < a.shape.length) : Raises (broadcastTo a s) := by
  refine ⟨.valueError, ?_⟩
  unfold broadcastTo
  cases hb : bcShape a.shape s with
  | error e => rfl
  | ok r =>
    have := bcShape_length hb
    have hne : r ≠ s := by rintro rfl; omega
    simp [hne]

theorem broadcastTo_vec {α : Type} {a : Arr α} {N : ℕ} :
    (broadcastTo a [N] = .ok ⟨[N], fun i => a.dat (bcIdx a.shape i)⟩ ∧
      (a.shape = [] ∨ a.shape = [1] ∨ a.shape = [N])) ∨
    (Raises (broadcastTo a [N]) ∧ ¬ (a.shape = [] ∨ a.shape = [1] ∨ a.shape = [N])) := by
  match hs : a.shape with
  | [] => left; simp [broadcastTo, hs]
  | [d] =>
    by_cases h1 : d = N
    · left; subst h1; simp [broadcastTo, hs]
    by_cases h2 : d = 1
    · left; subst h2
      by_cases hN : N = 1
      · exact absurd hN.symm h1
      · simp [broadcastTo, hs, bcShape, bcRev, h1, hN, Except.map]
    · right
      refine ⟨⟨.valueError, ?_⟩, by simp [h1, h2]⟩
      by_cases hN : N = 1
      · simp [broadcastTo, hs, bcShape, bcRev, hN, h1, h2, Except.map]
      · simp [broadcastTo, hs, bcShape, bcRev, h1, h2, hN, Except.map]
  | d :: e :: s =>
    right
    refine ⟨broadcastTo_rank (by simp [hs]), by simp⟩

theorem setSlice_raises {a v : Arr ℝ} {lo len N : ℕ} (ha : a.shape = [N]) (h : Raises (broadcastTo v [len])) :
    Raises (setSlice a lo len v) := by
  obtain ⟨e, h⟩ := h
  exact ⟨e, by simp [setSlice, ha, h]⟩

/-! ### `ssp_lg_age_gyr` and `ssp_lgmet` must be one-dimensional -/

theorem edges_prefix_raises {t : Arr ℝ} (h : ∀ N, t.shape ≠ [N]) {db : Arr ℝ} (hdb : db.shape = t.shape)
    (hne : t.shape ≠ []) {β : Type} {f : Arr ℝ → Except PyErr β} :
    Raises (do
      let d ← map2 (· - ·) t (map (· / 2) db)
      let e ← setInit (zeros1 (size db + 1)) d
      f e) := by
  refine Raises.bind' fun d hd => ?_
  have hds := map2_ok_shape hd
  simp only [map, hdb, bcShape_self, Except.ok.injEq] at hds
  refine Raises.bind (setSlice_raises (N := size db + 1) rfl ?_)
  refine broadcastTo_rank ?_
  rw [← hds]
  match ht : t.shape with
  | [] => exact absurd ht hne
  | [N] => exact absurd ht (h N)
  | _ :: _ :: _ => simp

theorem jax_get_dt_array_scalar {t : Arr ℝ} (h : t.shape = []) : Raises (jax_get_dt_array t) := by
  unfold jax_get_dt_array
  exact Raises.bind ⟨.indexError, by simp [sliceInit, h]⟩

theorem get_bin_edges_raises {t : Arr ℝ} (h : ∀ N, t.shape ≠ [N]) (lo hi : ℝ) : Raises (get_bin_edges t lo hi) := by
  by_cases h0 : t.shape = []
  · exact Raises.bind (jax_get_dt_array_scalar h0)
  · refine Raises.bind' fun db hdb => ?_
    exact edges_prefix_raises h (jax_get_dt_array_shape hdb) h0

theorem get_lg_age_bin_edges_raises {t : Arr ℝ} (h : ∀ N, t.shape ≠ [N]) : Raises (get_lg_age_bin_edges t) := by
  by_cases h0 : t.shape = []
  · exact Raises.bind (jax_get_dt_array_scalar h0)
  · refine Raises.bind' fun db hdb => ?_
    exact edges_prefix_raises h (jax_get_dt_array_shape hdb) h0

/-! ### `gal_t_table` must be one-dimensional, `gal_sfr_table` must match it -/

theorem cumulative_shape {t s r : Arr ℝ} (h : cumulative_mstar_formed t s = .ok r) :
    r.shape = [size t] ∧ (t.shape = [] ∨ t.shape = [1] ∨ t.shape = [size t]) ∧
      (s.shape = [] ∨ s.shape = [1] ∨ s.shape = [size t]) := by
  unfold cumulative_mstar_formed at h
  obtain ⟨p, hp, h⟩ := bind_ok h
  obtain ⟨p', hp', h⟩ := bind_ok h
  obtain ⟨q, hq, h⟩ := bind_ok h
  obtain ⟨q', hq', h⟩ := bind_ok h
  obtain ⟨c, hc, h⟩ := bind_ok h
  obtain ⟨c', hc', h⟩ := bind_ok h
  have sp := setFirst_shape hp
  have sq := setFirst_shape hq
  have sp' := setSlice_shape hp'
  have sq' := setSlice_shape hq'
  simp only [zeros1] at sp sq
  rw [sp] at sp'
  rw [sq] at sq'
  refine ⟨?_, ?_, ?_⟩
  · unfold cumtrapz at hc
    obtain ⟨x0, _, hc⟩ := bind_ok hc
    obtain ⟨y0, _, hc⟩ := bind_ok hc
    rw [sp', sq'] at hc
    simp only [if_true, Except.ok.injEq] at hc
    have : c.shape = [size t + 1] := by rw [← hc]
    simp only [sliceTail, this, Except.ok.injEq] at hc'
    cases h
    simp [map, ← hc']
  · rcases broadcastTo_vec (a := t) (N := size t) with ⟨-, h⟩ | ⟨h, -⟩
    · exact h
    · obtain ⟨e, h⟩ := h
      simp [setTail, setSlice, sp, h] at hp'
  · rcases broadcastTo_vec (a := s) (N := size t) with ⟨-, h⟩ | ⟨h, -⟩
    · exact h
    · obtain ⟨e, h⟩ := h
      simp [setTail, setSlice, sq, h] at hq'

/-- a table of times that is not one-dimensional raises -/
theorem logsm_interp_raises {t s c : Arr ℝ} (h : ∀ N, t.shape ≠ [N]) (x : Arr ℝ) :
    Raises (do
      let l ← calc_logsm_table_from_sfh_table t s c
      interp x (map Jnp.log10 t) l) := by
  refine Raises.bind' fun l hl => ?_
  unfold calc_logsm_table_from_sfh_table at hl
  obtain ⟨_, _, hl⟩ := bind_ok hl
  obtain ⟨g, _, hl⟩ := bind_ok hl
  obtain ⟨q, hq, hl⟩ := bind_ok hl
  obtain ⟨h1, h2, -⟩ := cumulative_shape hq
  cases hl
  rcases h2 with h2 | h2 | h2
  · refine ⟨.valueError, ?_⟩
    simp [interp, map, h1, h2]
  · exact absurd h2 (h _)
  · exact absurd h2 (h _)

theorem age_weights_raises_t {t s ag tob c : Arr ℝ} (h : ∀ N, t.shape ≠ [N]) :
    Raises (calc_age_weights_from_sfh_table t s ag tob c) := by
  unfold calc_age_weights_from_sfh_table
  refine Raises.bind' fun l hl => Raises.bind ?_
  unfold calc_age_weights_from_logsm_table
  refine Raises.bind' fun e _ => Raises.bind' fun be _ => Raises.bind' fun bm _ => Raises.bind ?_
  have := logsm_interp_raises (s := s) (c := c) h be
  rwa [hl] at this

theorem age_weights_raises_ages {t s ag tob c : Arr ℝ} (h : ∀ N, ag.shape ≠ [N]) :
    Raises (calc_age_weights_from_sfh_table t s ag tob c) := by
  unfold calc_age_weights_from_sfh_table
  refine Raises.bind' fun l hl => Raises.bind ?_
  unfold calc_age_weights_from_logsm_table
  exact Raises.bind (get_lg_age_bin_edges_raises h)

/-- a star formation history is accepted as a scalar, as one value, or with as many values as there are times -/
theorem logsm_raises_sfr {t s c : Arr ℝ} {a : Fin n → ℝ} {y : ℝ} (ht : Is1 t a) (hc : Is0 c y)
    (h : ¬ (s.shape = [] ∨ s.shape = [1] ∨ s.shape = [n])) :
    Raises (calc_logsm_table_from_sfh_table t s c) := by
  unfold calc_logsm_table_from_sfh_table
  rw [map2_any0 hc]
  refine (where_sc (c := ⟨s.shape, _⟩) (b := s) hc rfl).raises fun g hg => Raises.bind' fun q hq => ?_
  have := (cumulative_shape hq).2.2
  rw [hg, size_1 ht] at this
  exact absurd this h

theorem where_sc0 {c : Arr Prop} {a b : Arr ℝ} {x : ℝ} (ha : Is0 a x) (hs : c.shape = b.shape) :
    ∀ r, where_ c a b = .ok r → r.shape = b.shape := by
  intro r hr
  obtain ⟨r', e, h⟩ := where_sc (c := c) (b := b) ha hs
  rw [e] at hr
  cases hr
  exact h

/-- a constant history written as one number -/
theorem logsm_ok_const {t s c : Arr ℝ} {a : Fin n → ℝ} {v y : ℝ} (ht : Is1 t a) (hc : Is0 c y)
    (h : Is0 s v ∨ Is1 s fun _ : Fin 1 => v) :
    Ok (calc_logsm_table_from_sfh_table t s c)
      (Is1 · (StellarAgeWeights.calc_logsm_table_from_sfh_table a (fun _ => v) y)) := by
  have key : ∀ g : Arr ℝ, (Is0 g (if v < y then y else v) ∨ Is1 g fun _ : Fin 1 => if v < y then y else v) →
      Ok (cumulative_mstar_formed t g)
        (Is1 · (Utils.cumulative_mstar_formed a fun _ => if v < y then y else v)) := by
    intro g hg
    simp only [cumulative_mstar_formed]
    rw [size_1 ht]
    refine (setFirst_1 (zeros1_1 (n + 1)) (Is0.scal _)).bind fun p hp => ?_
    refine (setTail_1 hp ht).bind fun p' hp' => ?_
    refine (setFirst_1 (zeros1_1 (n + 1)) (Is0.scal _)).bind fun q hq => ?_
    have hst : Ok (setTail q g) (Is1 · (Jnp.setTail (Jnp.setAt (Jnp.zeros (n + 1)) 0 SFR_MIN) fun _ : Fin n => if v < y then y else v)) := by
      rcases hg with hg | hg
      · exact setTail_10 hq hg
      · rcases broadcastTo_vec (a := g) (N := n) with ⟨h, -⟩ | ⟨-, h⟩
        · refine ⟨_, by rw [setTail, setSlice, hq.1]; simp only [List.headD_cons, Nat.add_sub_cancel]; rw [h], rfl,
            fun i => ?_⟩
          refine Fin.cases ?_ (fun j => ?_) i
          · simp only [Jnp.setTail]
            simpa using hq.2 0
          · simp only [Jnp.setTail]
            have h1 : (j : ℕ) + 1 < 1 + n := by omega
            have h2 := hg.2 0
            simp only [Fin.val_zero] at h2
            simp [h1, hg.1, bcIdx, h2]
        · exact absurd (Or.inr (Or.inl hg.1)) h
    refine hst.bind fun q' hq' => ?_
    refine (cumtrapz_ok hp' hq').bind fun c hc => ?_
    refine (sliceTail_1 hc).bind fun c' hc' => ?_
    exact .pure (hc'.map _)
  rcases h with hs | hs
  · refine (map2_00 hs hc).bind fun p hp => ?_
    refine (where_000 hp hc hs).bind fun g hg => ?_
    exact (key g (Or.inl hg)).bind fun q hq => .pure (hq.map _)
  · refine (map2_10 hs hc).bind fun p hp => ?_
    refine (where_101 hp hc hs).bind fun g hg => ?_
    exact (key g (Or.inr hg)).bind fun q hq => .pure (hq.map _)

/-! ### `t_obs` of any shape -/

omit [Jnp.Dtype] [Edge] in
theorem bc_tobs {pre : List ℕ} {M : ℕ} : bcShape (pre ++ [1]) [M] = .ok (pre ++ [M]) := by
  simp only [bcShape, List.reverse_append, List.reverse_cons, List.reverse_nil, List.nil_append, List.cons_append]
  by_cases h : M = 1
  · subst h; simp [bcRev, bcRev_nil, Except.map]
  · simp [bcRev, bcRev_nil, Except.map, h, Ne.symm h]

omit [Jnp.Dtype] [Edge] in
theorem bc_tobs_raises {pre : List ℕ} {d M : ℕ} (h1 : d ≠ 1) (h2 : d ≠ M) (h3 : M ≠ 1) :
    Raises (bcShape (pre ++ [d]) [M]) := by
  refine ⟨.typeError, ?_⟩
  simp only [bcShape, List.reverse_append, List.reverse_cons, List.reverse_nil, List.nil_append, List.cons_append]
  simp [bcRev, h1, h2, h3, Except.map]

omit [Jnp.Dtype] [Edge] in
theorem bcIdx_append {pre idx : List ℕ} {d j : ℕ} (h : idx.length = pre.length) :
    bcIdx (pre ++ [d]) (idx ++ [j]) = bcIdx pre idx ++ [if d = 1 then 0 else j] := by
  have : (idx ++ [j]).length - (pre ++ [d]).length = 0 := by simp [h]
  simp only [bcIdx, this, h, Nat.sub_self, List.drop_zero]
  rw [List.zip_append h.symm]
  simp

omit [Jnp.Dtype] [Edge] in
theorem bcIdx_last {idx : List ℕ} {M j : ℕ} (h : j < M) : bcIdx [M] (idx ++ [j]) = [j] := by
  have : (idx ++ [j]).length - [M].length = idx.length := by simp
  simp only [bcIdx, this, List.drop_left, List.zip_cons_cons, List.zip_nil_right, List.map_cons, List.map_nil]
  split_ifs with h1
  · have : j = 0 := by omega
    rw [this]
  · rfl

/-- an array whose last axis holds `f idx 0, …, f idx (M-1)` for each index `idx` of the leading axes `pre` -/
def IsRows (a : Arr ℝ) (pre : List ℕ) {M : ℕ} (f : List ℕ → Fin M → ℝ) : Prop :=
  a.shape = pre ++ [M] ∧ ∀ idx, List.Forall₂ (· < ·) idx pre → ∀ j : Fin M, a.dat (idx ++ [j.1]) = f idx j

omit [Jnp.Dtype] [Edge] in
theorem IsRows.map {a : Arr ℝ} {pre : List ℕ} {M : ℕ} {f : List ℕ → Fin M → ℝ} (h : IsRows a pre f) (g : ℝ → ℝ) :
    IsRows (Nd.map g a) pre fun idx j => g (f idx j) := ⟨h.1, fun idx hi j => by simp [Nd.map, h.2 idx hi j]⟩

omit [Jnp.Dtype] [Edge] in
theorem forall₂_snoc {idx pre : List ℕ} {j M : ℕ} (hi : List.Forall₂ (· < ·) idx pre) (hj : j < M) :
    List.Forall₂ (· < ·) (idx ++ [j]) (pre ++ [M]) :=
  List.rel_append hi (List.Forall₂.cons hj List.Forall₂.nil)

theorem lgt_birth_rows {t a : Arr ℝ} {pre : List ℕ} {M : ℕ} {y : Fin M → ℝ} (ht : t.shape = pre ++ [1]) (ha : Is1 a y) :
    Ok (get_lgt_birth t a)
      (IsRows · pre fun idx j => StellarAgeWeights.get_lgt_birth (t.dat (idx ++ [0])) (y j)) := by
  have hy := ha.map Jnp.exp10
  refine Ok.bind ⟨_, map2_shape (by rw [ht, hy.1]; exact bc_tobs), rfl⟩ fun b hb => ?_
  have hbr : IsRows b pre fun idx j => t.dat (idx ++ [0]) - Jnp.exp10 (y j) := by
    subst hb
    refine ⟨rfl, fun idx hi j => ?_⟩
    simp only [ht, hy.1, bcIdx_append hi.length_eq, bcIdx_self hi, bcIdx_last j.2, hy.2, if_true]
  clear hb
  refine Ok.bind (Q := (IsRows · pre fun idx j => if t.dat (idx ++ [0]) - Jnp.exp10 (y j) < T_BIRTH_MIN then T_BIRTH_MIN
    else t.dat (idx ++ [0]) - Jnp.exp10 (y j))) ?_ fun c hc => .pure (hc.map _)
  refine Ok.bind ⟨_, map2_0any (Is0.scal _), rfl⟩ fun ab hab => ?_
  subst hab
  refine ⟨_, map2_shape (bcShape_self _), hbr.1, fun idx hi j => ?_⟩
  have e1 : bcIdx b.shape (idx ++ [j.1]) = idx ++ [j.1] := by rw [hbr.1]; exact bcIdx_self (forall₂_snoc hi j.2)
  have e2 := hbr.2 idx hi j
  simp only [map, e1, e2]

theorem lgt_birth_raises {t a : Arr ℝ} {pre : List ℕ} {d M : ℕ} {y : Fin M → ℝ} (ht : t.shape = pre ++ [d]) (ha : Is1 a y)
    (h1 : d ≠ 1) (h2 : d ≠ M) (h3 : M ≠ 1) : Raises (get_lgt_birth t a) := by
  refine Raises.bind (map2_raises ?_)
  rw [ht, (ha.map _).1]
  exact bc_tobs_raises h1 h2 h3

omit [Jnp.Dtype] [Edge] in
theorem mapLast_snoc (f : ℕ → ℕ) (s : List ℕ) (d : ℕ) : mapLast f (s ++ [d]) = s ++ [f d] := by
  simp only [mapLast, List.dropLast_concat, List.getLastD_concat]

omit [Jnp.Dtype] [Edge] in
theorem diff_rows {a : Arr ℝ} {pre : List ℕ} {M : ℕ} {f : List ℕ → Fin (M + 1) → ℝ} (h : IsRows a pre f) :
    Ok (diff a) (IsRows · pre fun idx => Jnp.diff (f idx)) := by
  refine ⟨_, by rw [diff, if_neg (by simp [h.1])], by simp [h.1, mapLast_snoc], fun idx hi j => ?_⟩
  simp only [mapLast_snoc]
  exact congrArg₂ _ (h.2 idx hi j.succ) (h.2 idx hi j.castSucc)

/-- stellar mass formed in each age bin, by the documented interpolation -/
noncomputable def formed (lgt logsm : Fin (n + 2) → ℝ) (ages : Fin (m + 3) → ℝ) (t : ℝ) (j : Fin (m + 3)) : ℝ :=
  - Jnp.diff (fun i => Jnp.exp10 (Jnp.interp
    (StellarAgeWeights.get_lgt_birth t (StellarAgeWeights.get_lg_age_bin_edges ages i)) lgt logsm)) j

/-- `t_obs` with a last axis of length one: one normalisation for the whole batch -/
theorem age_weights_rows {t s ag tob c : Arr ℝ} {a b : Fin (n + 2) → ℝ} {g : Fin (m + 3) → ℝ} {y : ℝ} {pre : List ℕ}
    (ht : Is1 t a) (hs : Is1 s b) (hag : Is1 ag g) (hto : tob.shape = pre ++ [1]) (hc : Is0 c y) :
    Ok (calc_age_weights_from_sfh_table t s ag tob c) fun r =>
      ∃ d : Arr ℝ, IsRows d pre (fun idx => formed (fun i => Jnp.log10 (a i))
        (StellarAgeWeights.calc_logsm_table_from_sfh_table a b y) g (tob.dat (idx ++ [0]))) ∧
      IsRows r pre (fun idx j => formed (fun i => Jnp.log10 (a i))
        (StellarAgeWeights.calc_logsm_table_from_sfh_table a b y) g (tob.dat (idx ++ [0])) j /
          sumShape (pre ++ [m + 3]) d.dat) := by
  refine (logsm_ok ht hs hc).bind fun l hl => ?_
  refine Ok.bind (Q := fun r => ∃ d : Arr ℝ, IsRows d pre (fun idx => formed (fun i => Jnp.log10 (a i))
        (StellarAgeWeights.calc_logsm_table_from_sfh_table a b y) g (tob.dat (idx ++ [0]))) ∧
      IsRows r.2 pre (fun idx j => formed (fun i => Jnp.log10 (a i))
        (StellarAgeWeights.calc_logsm_table_from_sfh_table a b y) g (tob.dat (idx ++ [0])) j /
          sumShape (pre ++ [m + 3]) d.dat)) ?_ fun r hr => .pure hr
  refine (lg_age_bin_edges_ok hag).bind fun e he => ?_
  refine (lgt_birth_rows hto he).bind fun be hbe => ?_
  refine (lgt_birth_rows hto hag).bind fun bm hbm => ?_
  refine Ok.bind ⟨_, interp_tab (ht.map Jnp.log10) hl, rfl⟩ fun q hq => ?_
  have hqr := hbe.map (fun x => Jnp.interp x (fun i => Jnp.log10 (a i))
    (StellarAgeWeights.calc_logsm_table_from_sfh_table a b y))
  rw [hq] at hqr
  refine (diff_rows (hqr.map Jnp.exp10)).bind fun d hd => ?_
  have hdr := hd.map (- ·)
  refine Ok.bind ⟨_, map2_any0 (y := sumShape (pre ++ [m + 3]) (Nd.map (- ·) d).dat) ⟨rfl, ?_⟩, rfl⟩ fun v hv => ?_
  · simp [sumAll, scal, hdr.1]
  · subst hv
    refine .pure ⟨Nd.map (- ·) d, hdr, hdr.1, fun idx hi j => ?_⟩
    simp only []
    rw [hdr.1, bcIdx_self (forall₂_snoc hi j.2), hdr.2 idx hi j]
    rfl

/-- any other shape of `t_obs` raises -/
theorem age_weights_raises_tobs {t s ag tob c : Arr ℝ} {g : Fin (m + 3) → ℝ} {pre : List ℕ} {d : ℕ} (hag : Is1 ag g)
    (hto : tob.shape = pre ++ [d]) (hd : d ≠ 1) : Raises (calc_age_weights_from_sfh_table t s ag tob c) := by
  unfold calc_age_weights_from_sfh_table
  refine Raises.bind' fun l hl => Raises.bind ?_
  unfold calc_age_weights_from_logsm_table
  refine (lg_age_bin_edges_ok hag).raises fun e he => ?_
  by_cases h : d = m + 4
  · refine Raises.bind' fun be _ => Raises.bind ?_
    exact lgt_birth_raises hto hag hd (by omega) (by omega)
  · exact Raises.bind (lgt_birth_raises hto he hd h (by omega))

end Dsps.NdSed
