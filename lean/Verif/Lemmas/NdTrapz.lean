import Verif.Lemmas.NdArgs
import Verif.Model.NdPhot

/-! Broadcasting over leading axes, `trapezoid`, `linspace` and `vmap` on arrays of any rank. -/
namespace Dsps.NdSed
open Nd Py

variable {n m M : ℕ} {pre : List ℕ}

/-- the values broadcasting reads in an array, when the result has leading axes `pre` and last axis of length `M` -/
def Reads (a : Arr ℝ) (pre : List ℕ) {M : ℕ} (u : List ℕ → Fin M → ℝ) : Prop :=
  ∀ idx, List.Forall₂ (· < ·) idx pre → ∀ j : Fin M, a.dat (bcIdx a.shape (idx ++ [j.1])) = u idx j

theorem IsRows.reads {a : Arr ℝ} {u : List ℕ → Fin M → ℝ} (h : IsRows a pre u) : Reads a pre u := fun idx hi j => by
  rw [h.1, bcIdx_self (forall₂_snoc hi j.2), h.2 idx hi j]

theorem is1_reads {a : Arr ℝ} {x : Fin M → ℝ} (h : Is1 a x) : Reads a pre fun _ => x := fun idx _ j => by
  rw [h.1, bcIdx_last j.2, h.2]

theorem is0_reads {a : Arr ℝ} {x : ℝ} (h : Is0 a x) : Reads a pre fun _ (_ : Fin M) => x := fun idx _ j => by
  rw [h.1, bcIdx_nil, h.2]

theorem is11_reads {a : Arr ℝ} {x : ℝ} (h : Is1 a fun _ : Fin 1 => x) : Reads a pre fun _ (_ : Fin M) => x :=
  fun idx _ j => by
    have e : bcIdx [1] (idx ++ [j.1]) = [0] := by
      have : (idx ++ [j.1]).length - [1].length = idx.length := by simp
      simp only [bcIdx, this, List.drop_left, List.zip_cons_cons, List.zip_nil_right, List.map_cons, List.map_nil, if_true]
    rw [h.1, e]
    exact h.2 0

theorem bc_rows_vec : bcShape (pre ++ [M]) [M] = .ok (pre ++ [M]) := by
  simp [bcShape, bcRev, bcRev_nil, Except.map]

theorem bc_vec_rows : bcShape [M] (pre ++ [M]) = .ok (pre ++ [M]) := by
  simp [bcShape, bcRev, Except.map]

theorem map2_reads {f : ℝ → ℝ → ℝ} {a b : Arr ℝ} {u v : List ℕ → Fin M → ℝ}
    (hs : bcShape a.shape b.shape = .ok (pre ++ [M])) (ha : Reads a pre u) (hb : Reads b pre v) :
    Ok (map2 f a b) (IsRows · pre fun idx j => f (u idx j) (v idx j)) :=
  ⟨_, map2_shape hs, rfl, fun idx hi j => by simp only [ha idx hi j, hb idx hi j]⟩

theorem map2_rr {f : ℝ → ℝ → ℝ} {a b : Arr ℝ} {u v : List ℕ → Fin M → ℝ} (ha : IsRows a pre u) (hb : IsRows b pre v) :
    Ok (map2 f a b) (IsRows · pre fun idx j => f (u idx j) (v idx j)) :=
  map2_reads (by rw [ha.1, hb.1, bcShape_self]) ha.reads hb.reads

/-- an array of shape `s` with entries `g` -/
def IsArr (a : Arr ℝ) (s : List ℕ) (g : List ℕ → ℝ) : Prop :=
  a.shape = s ∧ ∀ t, List.Forall₂ (· < ·) t s → a.dat t = g t

theorem IsArr.map {a : Arr ℝ} {s : List ℕ} {g : List ℕ → ℝ} (h : IsArr a s g) (f : ℝ → ℝ) :
    IsArr (Nd.map f a) s fun t => f (g t) := ⟨h.1, fun t ht => by simp [Nd.map, h.2 t ht]⟩

theorem map2_aa {f : ℝ → ℝ → ℝ} {a b : Arr ℝ} {s : List ℕ} {u v : List ℕ → ℝ} (ha : IsArr a s u) (hb : IsArr b s v) :
    Ok (map2 f a b) (IsArr · s fun t => f (u t) (v t)) :=
  ⟨_, map2_shape (by rw [ha.1, hb.1, bcShape_self]), rfl, fun t ht => by
    simp only [ha.1, hb.1, bcIdx_self ht, ha.2 t ht, hb.2 t ht]⟩

theorem map2_a0 {f : ℝ → ℝ → ℝ} {a b : Arr ℝ} {s : List ℕ} {u : List ℕ → ℝ} {y : ℝ} (ha : IsArr a s u) (hb : Is0 b y) :
    Ok (map2 f a b) (IsArr · s fun t => f (u t) y) :=
  ⟨_, map2_shape (by rw [ha.1, hb.1, bcShape_nil_right]), rfl, fun t ht => by
    simp only [ha.1, hb.1, bcIdx_self ht, ha.2 t ht, bcIdx_nil, hb.2]⟩

theorem map2_0a {f : ℝ → ℝ → ℝ} {a b : Arr ℝ} {s : List ℕ} {v : List ℕ → ℝ} {x : ℝ} (ha : Is0 a x) (hb : IsArr b s v) :
    Ok (map2 f a b) (IsArr · s fun t => f x (v t)) :=
  ⟨_, map2_shape (by rw [ha.1, hb.1, bcShape_nil_left]), rfl, fun t ht => by
    simp only [ha.1, hb.1, bcIdx_self ht, hb.2 t ht, bcIdx_nil, ha.2]⟩

theorem IsArr.is0 {a : Arr ℝ} {g : List ℕ → ℝ} (h : IsArr a [] g) : Is0 a (g []) := ⟨h.1, h.2 [] .nil⟩

theorem IsArr.is1 {a : Arr ℝ} {g : List ℕ → ℝ} (h : IsArr a [n] g) : Is1 a fun i : Fin n => g [i.1] :=
  ⟨h.1, fun i => h.2 _ (.cons i.2 .nil)⟩

theorem sumLast_rows {a : Arr ℝ} {u : List ℕ → Fin M → ℝ} (h : IsRows a pre u) :
    Ok (sumLast a) (IsArr · pre fun idx => Jnp.sum (u idx)) := by
  refine ⟨_, by rw [sumLast, if_neg (by simp [h.1])], by simp [h.1], fun idx hi => ?_⟩
  simp only [h.1, List.getLastD_concat, sum_range_fin]
  exact Finset.sum_congr rfl fun j _ => h.2 idx hi j

theorem lastTail_rows {a : Arr ℝ} {u : List ℕ → Fin (M + 1) → ℝ} (h : IsRows a pre u) :
    Ok (lastTail a) (IsRows · pre fun idx => Jnp.tail (u idx)) := by
  refine ⟨_, by rw [lastTail, if_neg (by simp [h.1])], by simp [h.1, mapLast_snoc], fun idx hi j => ?_⟩
  simp only [mapLast_snoc]
  exact h.2 idx hi j.succ

theorem lastInit_rows {a : Arr ℝ} {u : List ℕ → Fin (M + 1) → ℝ} (h : IsRows a pre u) :
    Ok (lastInit a) (IsRows · pre fun idx => Jnp.init (u idx)) := by
  refine ⟨_, by rw [lastInit, if_neg (by simp [h.1])], by simp [h.1, mapLast_snoc], fun idx hi j => ?_⟩
  exact h.2 idx hi j.castSucc

theorem trapezoid_core {y x d : Arr ℝ} {f g : List ℕ → Fin (M + 1) → ℝ} (hy : IsRows y pre f) (hd : diff x = .ok d)
    (hs : bcShape d.shape (pre ++ [M]) = .ok (pre ++ [M])) (hr : Reads d pre fun idx => Jnp.diff (g idx)) :
    Ok (trapezoid y x) (IsArr · pre fun idx => Jnp.trapezoid (f idx) (g idx)) := by
  refine Ok.bind (Q := (· = d)) ⟨d, hd, rfl⟩ fun d' e => ?_
  subst e
  refine (lastTail_rows hy).bind fun hi hhi => (lastInit_rows hy).bind fun lo hlo => ?_
  refine (map2_rr hhi hlo).bind fun s hsr => ?_
  refine (map2_reads (by rw [hsr.1]; exact hs) hr hsr.reads).bind fun p hp => ?_
  exact (sumLast_rows hp).bind fun r hr => .pure (hr.map _)

theorem trapezoid_rows {y x : Arr ℝ} {f g : List ℕ → Fin (M + 1) → ℝ} (hy : IsRows y pre f) (hx : IsRows x pre g) :
    Ok (trapezoid y x) (IsArr · pre fun idx => Jnp.trapezoid (f idx) (g idx)) := by
  obtain ⟨d, e, h⟩ := diff_rows hx
  exact trapezoid_core hy e (by rw [h.1, bcShape_self]) h.reads

theorem trapezoid_rows_vec {y x : Arr ℝ} {f : List ℕ → Fin (M + 1) → ℝ} {g : Fin (M + 1) → ℝ} (hy : IsRows y pre f)
    (hx : Is1 x g) : Ok (trapezoid y x) (IsArr · pre fun idx => Jnp.trapezoid (f idx) g) := by
  obtain ⟨d, e, h⟩ := diff_1 hx
  exact trapezoid_core (g := fun _ => g) hy e (by rw [h.1]; exact bc_vec_rows) (is1_reads h)

theorem is1_rows {a : Arr ℝ} {x : Fin M → ℝ} (h : Is1 a x) : IsRows a [] fun _ => x :=
  ⟨h.1, fun idx hi j => by cases hi; exact h.2 j⟩

theorem is2_rows {a : Arr ℝ} {x : Fin n → Fin M → ℝ} (h : Is2 a x) :
    IsRows a [n] fun idx j => if hi : idx.headD 0 < n then x ⟨idx.headD 0, hi⟩ j else 0 :=
  ⟨h.1, fun idx hi j => by
    cases hi with
    | cons h1 h2 => cases h2; simp [h1]; exact h.2 ⟨_, h1⟩ j⟩

theorem trapezoid_1 {y x : Arr ℝ} {f g : Fin (M + 1) → ℝ} (hy : Is1 y f) (hx : Is1 x g) :
    Ok (trapezoid y x) (Is0 · (Jnp.trapezoid f g)) :=
  (trapezoid_rows (is1_rows hy) (is1_rows hx)).mono fun _ h => h.is0

theorem linspace_0 {z : Arr ℝ} {x : ℝ} (a : ℝ) (hz : Is0 z x) : Is1 (linspace a z n) (Jnp.linspace a x n) := by
  refine ⟨by simp [linspace, hz.1], fun i => ?_⟩
  simp only [linspace, i.2, dif_pos, hz.2]

/-- a row of the table `jnp.linspace(a, z, n+2)`: the new axis comes first -/
theorem linspace_rows {z : Arr ℝ} {u : List ℕ → Fin M → ℝ} (a : ℝ) (hz : IsRows z pre u) :
    IsRows (linspace a z n) ((n + 2) :: pre) fun idx j =>
      if hi : idx.headD 0 < n + 2 then Jnp.linspace a (u idx.tail j) n ⟨idx.headD 0, hi⟩ else 0 := by
  refine ⟨by simp [linspace, hz.1], fun idx hi j => ?_⟩
  cases hi with
  | cons h1 h2 =>
    simp only [List.cons_append, linspace, hz.2 _ h2 j, List.headD_cons, List.tail_cons]
    rfl

theorem vmap_gen {f : Arr ℝ → Except PyErr (Arr ℝ)} {a : Arr ℝ} {d : ℕ} {s s' : List ℕ} {g : ℕ → List ℕ → ℝ}
    (ha : a.shape = (d + 1) :: s) (hf : ∀ i, i < d + 1 → Ok (f (row a s i)) (IsArr · s' (g i))) :
    Ok (vmap f a) (IsArr · ((d + 1) :: s') fun t => g (t.headD 0) t.tail) := by
  obtain ⟨r0, e0, h0⟩ := hf 0 (Nat.succ_pos _)
  refine ⟨_, vmap_eq ha e0, by simp [h0.1], fun t ht => ?_⟩
  cases ht with
  | cons h1 h2 =>
    obtain ⟨r, e, h⟩ := hf _ h1
    simp only [e, h.2 _ h2, List.headD_cons, List.tail_cons]

theorem vmapTwo_gen {f : Arr ℝ → Arr ℝ → Except PyErr (Arr ℝ)} {a b : Arr ℝ} {d : ℕ} {s t s' : List ℕ} {g : ℕ → List ℕ → ℝ}
    (ha : a.shape = (d + 1) :: s) (hb : b.shape = (d + 1) :: t)
    (hf : ∀ i, i < d + 1 → Ok (f (row a s i) (row b t i)) (IsArr · s' (g i))) :
    Ok (vmapTwo f a b) (IsArr · ((d + 1) :: s') fun t => g (t.headD 0) t.tail) := by
  obtain ⟨r0, e0, h0⟩ := hf 0 (Nat.succ_pos _)
  refine ⟨_, vmapTwo_eq ha hb e0, by simp [h0.1], fun t ht => ?_⟩
  cases ht with
  | cons h1 h2 =>
    obtain ⟨r, e, h⟩ := hf _ h1
    simp only [e, h.2 _ h2, List.headD_cons, List.tail_cons]

theorem vmap_scalar {α β : Type} {f : Arr α → Except PyErr (Arr β)} {a : Arr α} (h : a.shape = []) : Raises (vmap f a) := by
  simp [vmap, h, Raises]

theorem vmap_raises {α β : Type} {f : Arr α → Except PyErr (Arr β)} {a : Arr α} {d : ℕ} {s : List ℕ} (h : a.shape = d :: s)
    (hf : Raises (f (row a s 0))) : Raises (vmap f a) := by
  obtain ⟨e, he⟩ := hf
  exact ⟨e, by simp only [vmap, h, he]⟩

theorem Is0.isArr {a : Arr ℝ} {x : ℝ} (h : Is0 a x) : IsArr a [] fun _ => x := ⟨h.1, fun t ht => by cases ht; exact h.2⟩

end Dsps.NdSed
