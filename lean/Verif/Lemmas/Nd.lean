import Verif.Nd

/-! Rules for running array programs whose arguments have documented shapes. -/
namespace Nd
open Py

variable {α β γ : Type} {n m p : ℕ}

/-- the call returns a value satisfying `Q` -/
def Ok (r : Except PyErr β) (Q : β → Prop) : Prop := ∃ a, r = .ok a ∧ Q a

theorem Ok.bind {r : Except PyErr α} {k : α → Except PyErr β} {Q : α → Prop} {Q' : β → Prop} (h : Ok r Q)
    (hk : ∀ a, Q a → Ok (k a) Q') : Ok (r >>= k) Q' := by
  obtain ⟨a, rfl, ha⟩ := h
  exact hk a ha

theorem Ok.pure {a : β} {Q : β → Prop} (h : Q a) : Ok (Pure.pure a) Q := ⟨a, rfl, h⟩

theorem Ok.mono {r : Except PyErr β} {Q Q' : β → Prop} (h : Ok r Q) (hQ : ∀ a, Q a → Q' a) : Ok r Q' := by
  obtain ⟨a, e, ha⟩ := h
  exact ⟨a, e, hQ a ha⟩

/-! ### Broadcasting -/

@[simp] theorem bcIdx_nil (i : List ℕ) : bcIdx [] i = [] := by simp [bcIdx]

theorem bcIdx_one {i : ℕ} (h : i < n) : bcIdx [n] [i] = [i] := by
  simp only [bcIdx, List.length_singleton, Nat.sub_self, List.drop_zero, List.zip_cons_cons, List.zip_nil_right,
    List.map_cons, List.map_nil]
  split_ifs <;> simp <;> omega

theorem bcIdx_two {i j : ℕ} (h : i < n) (h' : j < m) : bcIdx [n, m] [i, j] = [i, j] := by
  simp only [bcIdx, List.length_cons, List.length_nil, Nat.sub_self, List.drop_zero, List.zip_cons_cons,
    List.zip_nil_right, List.map_cons, List.map_nil]
  split_ifs <;> simp <;> omega

theorem bcIdx_three {i j l : ℕ} (h : i < n) (h' : j < m) (h'' : l < p) : bcIdx [n, m, p] [i, j, l] = [i, j, l] := by
  simp only [bcIdx, List.length_cons, List.length_nil, Nat.sub_self, List.drop_zero, List.zip_cons_cons,
    List.zip_nil_right, List.map_cons, List.map_nil]
  split_ifs <;> simp <;> omega

theorem bcRev_self (s : List ℕ) : bcRev s s = .ok s := by
  induction s with
  | nil => rfl
  | cons x s ih => simp [bcRev, ih, Except.map]

theorem bcRev_nil (s : List ℕ) : bcRev s [] = .ok s := by cases s <;> rfl

@[simp] theorem bcShape_self (s : List ℕ) : bcShape s s = .ok s := by simp [bcShape, bcRev_self, Except.map]
@[simp] theorem bcShape_nil_left (s : List ℕ) : bcShape [] s = .ok s := by simp [bcShape, bcRev, Except.map]
@[simp] theorem bcShape_nil_right (s : List ℕ) : bcShape s [] = .ok s := by simp [bcShape, bcRev_nil, Except.map]

theorem map2_00 {f : α → β → γ} {a : Arr α} {b : Arr β} {x : α} {y : β} (ha : Is0 a x) (hb : Is0 b y) :
    Ok (map2 f a b) (Is0 · (f x y)) := by
  refine ⟨_, by rw [map2, ha.1, hb.1, bcShape_self], rfl, ?_⟩
  simp [ha.2, hb.2]

theorem map2_11 {f : α → β → γ} {a : Arr α} {b : Arr β} {x : Fin n → α} {y : Fin n → β} (ha : Is1 a x) (hb : Is1 b y) :
    Ok (map2 f a b) (Is1 · fun i => f (x i) (y i)) := by
  refine ⟨_, by rw [map2, ha.1, hb.1, bcShape_self], rfl, fun i => ?_⟩
  simp only [bcIdx_one i.2, ha.2, hb.2]

theorem map2_10 {f : α → β → γ} {a : Arr α} {b : Arr β} {x : Fin n → α} {y : β} (ha : Is1 a x) (hb : Is0 b y) :
    Ok (map2 f a b) (Is1 · fun i => f (x i) y) := by
  refine ⟨_, by rw [map2, ha.1, hb.1, bcShape_nil_right], rfl, fun i => ?_⟩
  simp only [bcIdx_one i.2, ha.2, bcIdx_nil, hb.2]

theorem map2_01 {f : α → β → γ} {a : Arr α} {b : Arr β} {x : α} {y : Fin n → β} (ha : Is0 a x) (hb : Is1 b y) :
    Ok (map2 f a b) (Is1 · fun i => f x (y i)) := by
  refine ⟨_, by rw [map2, ha.1, hb.1, bcShape_nil_left], rfl, fun i => ?_⟩
  simp only [bcIdx_one i.2, ha.2, bcIdx_nil, hb.2]

theorem map2_20 {f : α → β → γ} {a : Arr α} {b : Arr β} {x : Fin n → Fin m → α} {y : β} (ha : Is2 a x)
    (hb : Is0 b y) : Ok (map2 f a b) (Is2 · fun i j => f (x i j) y) := by
  refine ⟨_, by rw [map2, ha.1, hb.1, bcShape_nil_right], rfl, fun i j => ?_⟩
  simp only [bcIdx_two i.2 j.2, ha.2, bcIdx_nil, hb.2]

theorem Is0.scal (x : α) : Is0 (scal x) x := ⟨rfl, rfl⟩

theorem Is0.map {a : Arr α} {x : α} (h : Is0 a x) (g : α → β) : Is0 (map g a) (g x) := ⟨h.1, by simp [Nd.map, h.2]⟩

theorem Is1.map {a : Arr α} {x : Fin n → α} (h : Is1 a x) (g : α → β) : Is1 (map g a) fun i => g (x i) :=
  ⟨h.1, fun i => by simp [Nd.map, h.2]⟩

theorem Is2.map {a : Arr α} {x : Fin n → Fin m → α} (h : Is2 a x) (g : α → β) : Is2 (map g a) fun i j => g (x i j) :=
  ⟨h.1, fun i j => by simp [Nd.map, h.2]⟩

theorem Is1.congr {a : Arr α} {x y : Fin n → α} (h : Is1 a x) (e : ∀ i, x i = y i) : Is1 a y := by
  rwa [show y = x from funext fun i => (e i).symm]

theorem where_000 {c : Arr Prop} {a b : Arr ℝ} {p : Prop} {x y : ℝ} (hc : Is0 c p) (ha : Is0 a x) (hb : Is0 b y)
    [Decidable p] : Ok (where_ c a b) (Is0 · (if p then x else y)) := by
  refine (map2_00 ha hb).bind fun ab hab => (map2_00 hc hab).mono fun r hr => ⟨hr.1, ?_⟩
  rw [hr.2]
  split_ifs <;> rfl

theorem where_101 {c : Arr Prop} {a b : Arr ℝ} {p : Fin n → Prop} {x : ℝ} {y : Fin n → ℝ} (hc : Is1 c p) (ha : Is0 a x)
    (hb : Is1 b y) [∀ i, Decidable (p i)] : Ok (where_ c a b) (Is1 · fun i => if p i then x else y i) := by
  refine (map2_01 ha hb).bind fun ab hab => (map2_11 hc hab).mono fun r hr => hr.congr fun i => ?_
  simp only

theorem where_011 {c : Arr Prop} {a b : Arr ℝ} {p : Prop} {x y : Fin n → ℝ} (hc : Is0 c p) (ha : Is1 a x)
    (hb : Is1 b y) [Decidable p] : Ok (where_ c a b) (Is1 · (if p then x else y)) := by
  refine (map2_11 ha hb).bind fun ab hab => (map2_01 hc hab).mono fun r hr => hr.congr fun i => ?_
  simp only
  split_ifs <;> rfl

theorem broadcastTo_self {a : Arr α} {s : List ℕ} (h : a.shape = s) :
    broadcastTo a s = .ok ⟨s, fun i => a.dat (bcIdx s i)⟩ := by simp [broadcastTo, h]

theorem broadcastTo_nil {a : Arr α} {s : List ℕ} (h : a.shape = []) :
    broadcastTo a s = .ok ⟨s, fun _ => a.dat []⟩ := by simp [broadcastTo, h]

/-! ### One-dimensional arrays -/

theorem sliceInit_1 {a : Arr α} {x : Fin (n + 1) → α} (h : Is1 a x) : Ok (sliceInit a) (Is1 · (Jnp.init x)) := by
  refine ⟨_, by rw [sliceInit, h.1], rfl, fun i => ?_⟩
  exact h.2 i.castSucc

theorem sliceTail_1 {a : Arr α} {x : Fin (n + 1) → α} (h : Is1 a x) : Ok (sliceTail a) (Is1 · (Jnp.tail x)) := by
  refine ⟨_, by rw [sliceTail, h.1], rfl, fun i => ?_⟩
  exact h.2 i.succ

theorem diff_1 {a : Arr ℝ} {x : Fin (n + 1) → ℝ} (h : Is1 a x) : Ok (diff a) (Is1 · (Jnp.diff x)) := by
  refine ⟨_, by rw [diff, if_neg (by simp [h.1])], by simp [h.1, mapLast], fun i => ?_⟩
  simp only [mapLast, List.dropLast_singleton, List.nil_append, List.getLastD_cons, List.getLastD_nil]
  exact congrArg₂ _ (h.2 i.succ) (h.2 i.castSucc)

theorem idx_1 [Edge] {a : Arr ℝ} {x : Fin n → ℝ} (h : Is1 a x) (i : Fin n) : Ok (idx a i) (Is0 · (x i)) := by
  refine ⟨_, by rw [idx, h.1]; exact if_pos i.2, rfl, h.2 i⟩

theorem idxLast_1 [Edge] {a : Arr ℝ} {x : Fin (n + 1) → ℝ} (h : Is1 a x) : Ok (idxLast a) (Is0 · (Jnp.last x)) := by
  refine ⟨_, by rw [idxLast, h.1]; exact if_pos (Nat.succ_pos _), rfl, ?_⟩
  exact h.2 (Fin.last n)

theorem zeros1_1 (n : ℕ) : Is1 (zeros1 n) (Jnp.zeros n) := ⟨rfl, fun _ => rfl⟩

theorem zerosLike_1 {a : Arr ℝ} {x : Fin n → ℝ} (h : Is1 a x) : Is1 (zerosLike a) (Jnp.zeros n) :=
  ⟨h.1, fun _ => rfl⟩

theorem setInit_1 {a v : Arr ℝ} {x : Fin (n + 1) → ℝ} {y : Fin n → ℝ} (ha : Is1 a x) (hv : Is1 v y) :
    Ok (setInit a v) (Is1 · (Jnp.setInit x y)) := by
  refine ⟨_, by rw [setInit, setSlice, ha.1]; simp only [List.headD_cons, Nat.add_sub_cancel]; rw [broadcastTo_self hv.1],
    rfl, fun i => ?_⟩
  refine Fin.lastCases ?_ (fun j => ?_) i
  · simp only [Fin.val_last, Jnp.setInit]
    simpa using ha.2 (Fin.last n)
  · simp only [Fin.val_castSucc, Jnp.setInit]
    simp [bcIdx_one j.2, hv.2]

theorem setTail_1 {a v : Arr ℝ} {x : Fin (n + 1) → ℝ} {y : Fin n → ℝ} (ha : Is1 a x) (hv : Is1 v y) :
    Ok (setTail a v) (Is1 · (Jnp.setTail x y)) := by
  refine ⟨_, by rw [setTail, setSlice, ha.1]; simp only [List.headD_cons, Nat.add_sub_cancel]; rw [broadcastTo_self hv.1],
    rfl, fun i => ?_⟩
  refine Fin.cases ?_ (fun j => ?_) i
  · simp only [Jnp.setTail]
    simpa using ha.2 0
  · simp only [Jnp.setTail]
    have : (j : ℕ) + 1 < 1 + n := by omega
    simp [bcIdx_one j.2, hv.2, this]

theorem setTail_10 {a v : Arr ℝ} {x : Fin (n + 1) → ℝ} {y : ℝ} (ha : Is1 a x) (hv : Is0 v y) :
    Ok (setTail a v) (Is1 · (Jnp.setTail x fun _ => y)) := by
  refine ⟨_, by rw [setTail, setSlice, ha.1]; simp only [List.headD_cons, Nat.add_sub_cancel]; rw [broadcastTo_nil hv.1],
    rfl, fun i => ?_⟩
  refine Fin.cases ?_ (fun j => ?_) i
  · simp only [Jnp.setTail]
    simpa using ha.2 0
  · simp only [Jnp.setTail]
    have : (j : ℕ) + 1 < 1 + n := by omega
    simp [hv.2, this]

theorem setInterior_1 {a v : Arr ℝ} {x : Fin (n + 2) → ℝ} {y : Fin n → ℝ} (ha : Is1 a x) (hv : Is1 v y) :
    Ok (setInterior a v) (Is1 · (Jnp.setInterior x y)) := by
  refine ⟨_, by rw [setInterior, setSlice, ha.1]; simp only [List.headD_cons, Nat.add_sub_cancel];
                rw [broadcastTo_self hv.1], rfl, fun i => ?_⟩
  refine Fin.cases ?_ (fun j => ?_) i
  · simp only [Jnp.setInterior, Jnp.setTail]
    simpa using ha.2 0
  · refine Fin.lastCases ?_ (fun l => ?_) j
    · simp only [Jnp.setInterior, Jnp.setTail, Jnp.setInit, Jnp.tail]
      have : ¬ (n + 1 < 1 + n) := by omega
      simpa [this] using ha.2 (Fin.last (n + 1))
    · simp only [Jnp.setInterior, Jnp.setTail, Jnp.setInit, Jnp.tail]
      have : (l : ℕ) + 1 < 1 + n := by omega
      simp [bcIdx_one l.2, hv.2, this]

theorem setFirst_1 {a v : Arr ℝ} {x : Fin (n + 1) → ℝ} {y : ℝ} (ha : Is1 a x) (hv : Is0 v y) :
    Ok (setFirst a v) (Is1 · (Jnp.setAt x 0 y)) := by
  refine ⟨_, by rw [setFirst, ha.1]; simp only []; rw [broadcastTo_nil hv.1], rfl, fun i => ?_⟩
  by_cases h : i = 0
  · subst h; simp [Jnp.setAt, hv.2]
  · have h' : (i : ℕ) ≠ 0 := fun e => h (Fin.ext e)
    simp [Jnp.setAt, Function.update_of_ne h, h', ha.2]

theorem setLast_1 {a v : Arr ℝ} {x : Fin (n + 1) → ℝ} {y : ℝ} (ha : Is1 a x) (hv : Is0 v y) :
    Ok (setLast a v) (Is1 · (Jnp.setAt x (Fin.last n) y)) := by
  refine ⟨_, by rw [setLast, ha.1]; simp only []; rw [broadcastTo_nil hv.1], rfl, fun i => ?_⟩
  by_cases h : i = Fin.last n
  · subst h; simp [Jnp.setAt, hv.2]
  · have h' : (i : ℕ) ≠ n := fun e => h (Fin.ext e)
    simp [Jnp.setAt, Function.update_of_ne h, h', ha.2]

theorem size_1 {a : Arr α} {x : Fin n → α} (h : Is1 a x) : size a = n := by simp [size, h.1]

theorem sum_range_fin (f : ℕ → ℝ) (n : ℕ) : ∑ i ∈ Finset.range n, f i = ∑ i : Fin n, f i :=
  Finset.sum_range f

theorem sumAll_1 {a : Arr ℝ} {x : Fin n → ℝ} (h : Is1 a x) : Is0 (sumAll a) (Jnp.sum x) := by
  refine ⟨rfl, ?_⟩
  simp only [sumAll, scal, h.1, sumShape, sum_range_fin, h.2, Jnp.sum]

theorem sumAll_2 {a : Arr ℝ} {x : Fin n → Fin m → ℝ} (h : Is2 a x) :
    Is0 (sumAll a) (Jnp.sum fun i => Jnp.sum fun j => x i j) := by
  refine ⟨rfl, ?_⟩
  simp only [sumAll, scal, h.1, sumShape, sum_range_fin, h.2, Jnp.sum]

theorem sum0_1 {a : Arr ℝ} {x : Fin n → ℝ} (h : Is1 a x) : Ok (sum0 a) (Is0 · (Jnp.sum x)) := by
  refine ⟨_, by rw [sum0, h.1], rfl, ?_⟩
  simp only [sum_range_fin, h.2, Jnp.sum]

theorem all0_1 {a : Arr Prop} {x : Fin n → Prop} (h : Is1 a x) : Ok (all0 a) (Is0 · (∀ i, x i)) := by
  refine ⟨_, by rw [all0, h.1], rfl, ?_⟩
  simp only [eq_iff_iff]
  exact ⟨fun H i => (h.2 i) ▸ H i i.2, fun H i hi => by rw [h.2 ⟨i, hi⟩]; exact H _⟩

theorem vec_1 {a : Arr α} {x : Fin n → α} (h : Is1 a x) : vec a n = x := funext h.2

theorem interp_tab [Jnp.Dtype] [Edge] {x xp fp : Arr ℝ} {u v : Fin (n + 2) → ℝ} (hp : Is1 xp u) (hf : Is1 fp v) :
    interp x xp fp = .ok (map (fun x => Jnp.interp x u v) x) := by
  rw [interp, hp.1, hf.1, if_pos rfl]
  simp only [vec_1 hp, vec_1 hf]

theorem interp_1 [Jnp.Dtype] [Edge] {x xp fp : Arr ℝ} {u v : Fin (n + 2) → ℝ} {y : Fin m → ℝ} (hx : Is1 x y)
    (hp : Is1 xp u) (hf : Is1 fp v) : Ok (interp x xp fp) (Is1 · fun i => Jnp.interp (y i) u v) :=
  ⟨_, interp_tab hp hf, hx.map _⟩

theorem interp_0 [Jnp.Dtype] [Edge] {x xp fp : Arr ℝ} {u v : Fin (n + 2) → ℝ} {y : ℝ} (hx : Is0 x y)
    (hp : Is1 xp u) (hf : Is1 fp v) : Ok (interp x xp fp) (Is0 · (Jnp.interp y u v)) :=
  ⟨_, interp_tab hp hf, hx.map _⟩

theorem vmap_eq {f : Arr α → Except PyErr (Arr β)} {a : Arr α} {d : ℕ} {s : List ℕ} {r0 : Arr β} (ha : a.shape = d :: s)
    (e0 : f (row a s 0) = .ok r0) :
    vmap f a = .ok ⟨d :: r0.shape, fun idx => match idx with
        | i :: t => (match f (row a s i) with | .ok r => r.dat t | .error _ => r0.dat t)
        | [] => r0.dat []⟩ := by
  simp only [vmap, ha, e0]
  rfl

theorem vmapTwo_eq {f : Arr α → Arr β → Except PyErr (Arr γ)} {a : Arr α} {b : Arr β} {d : ℕ} {s t : List ℕ} {r0 : Arr γ}
    (ha : a.shape = d :: s) (hb : b.shape = d :: t) (e0 : f (row a s 0) (row b t 0) = .ok r0) :
    vmapTwo f a b = .ok ⟨d :: r0.shape, fun idx => match idx with
          | i :: u => (match f (row a s i) (row b t i) with | .ok r => r.dat u | .error _ => r0.dat u)
          | [] => r0.dat []⟩ := by
  simp only [vmapTwo, ha, hb, e0, if_true]
  rfl

theorem vmapTwo_1 {f : Arr α → Arr β → Except PyErr (Arr γ)} {a : Arr α} {b : Arr β} {x : Fin (n + 1) → α}
    {y : Fin (n + 1) → β} {g : α → β → γ} (ha : Is1 a x) (hb : Is1 b y)
    (hf : ∀ u v s t, Is0 u s → Is0 v t → Ok (f u v) (Is0 · (g s t))) :
    Ok (vmapTwo f a b) (Is1 · fun i => g (x i) (y i)) := by
  have hra : ∀ i : Fin (n + 1), Is0 (row a [] i) (x i) := fun i => ⟨rfl, ha.2 i⟩
  have hrb : ∀ i : Fin (n + 1), Is0 (row b [] i) (y i) := fun i => ⟨rfl, hb.2 i⟩
  obtain ⟨r0, e0, h0⟩ := hf _ _ _ _ (hra 0) (hrb 0)
  refine ⟨_, vmapTwo_eq ha.1 hb.1 e0, by simp [h0.1], fun i => ?_⟩
  obtain ⟨r, e, h⟩ := hf _ _ _ _ (hra i) (hrb i)
  simp only [e, h.2]

/-- `vmap` over a one-dimensional array of a function from scalars to vectors -/
theorem vmap_1_1 {f : Arr α → Except PyErr (Arr β)} {a : Arr α} {x : Fin (n + 1) → α} {g : α → Fin m → β} (ha : Is1 a x)
    (hf : ∀ u s, Is0 u s → Ok (f u) (Is1 · (g s))) : Ok (vmap f a) (Is2 · fun i => g (x i)) := by
  have hra : ∀ i : Fin (n + 1), Is0 (row a [] i) (x i) := fun i => ⟨rfl, ha.2 i⟩
  obtain ⟨r0, e0, h0⟩ := hf _ _ (hra 0)
  refine ⟨_, vmap_eq ha.1 e0, by simp [h0.1], fun i j => ?_⟩
  obtain ⟨r, e, h⟩ := hf _ _ (hra i)
  simp only [e, h.2]

/-- `vmap` over a one-dimensional array of a function from scalars to scalars -/
theorem vmap_1_0 {f : Arr α → Except PyErr (Arr β)} {a : Arr α} {x : Fin (n + 1) → α} {g : α → β} (ha : Is1 a x)
    (hf : ∀ u s, Is0 u s → Ok (f u) (Is0 · (g s))) : Ok (vmap f a) (Is1 · fun i => g (x i)) := by
  have hra : ∀ i : Fin (n + 1), Is0 (row a [] i) (x i) := fun i => ⟨rfl, ha.2 i⟩
  obtain ⟨r0, e0, h0⟩ := hf _ _ (hra 0)
  refine ⟨_, vmap_eq ha.1 e0, by simp [h0.1], fun i => ?_⟩
  obtain ⟨r, e, h⟩ := hf _ _ (hra i)
  simp only [e, h.2]

theorem swap01_2 {a : Arr α} {x : Fin n → Fin m → α} (h : Is2 a x) : Ok (swap01 a) (Is2 · fun j i => x i j) := by
  refine ⟨_, by rw [swap01, h.1], rfl, fun j i => h.2 i j⟩

/-! ### Reshaping -/

theorem ravel_lt {s idx : List ℕ} (h : List.Forall₂ (· < ·) idx s) : ravel s idx < s.prod := by
  induction h with
  | nil => simp [ravel]
  | @cons i d idx s hid h ih =>
    simp only [ravel, List.prod_cons]
    calc i * s.prod + ravel s idx < i * s.prod + s.prod := by omega
      _ = (i + 1) * s.prod := by ring
      _ ≤ d * s.prod := Nat.mul_le_mul_right _ hid

theorem unravel_ravel {s idx : List ℕ} (h : List.Forall₂ (· < ·) idx s) : unravel s (ravel s idx) = idx := by
  induction h with
  | nil => rfl
  | @cons i d idx s hid h ih =>
    have hlt := ravel_lt h
    have hp : 0 < s.prod := by omega
    simp only [unravel, ravel]
    rw [Nat.mul_comm, Nat.mul_add_mod, Nat.mod_eq_of_lt hlt, ih, Nat.mul_add_div hp, Nat.div_eq_of_lt hlt, Nat.add_zero]

theorem reshape_col {a : Arr α} {x : Fin n → α} (h : Is1 a x) :
    Ok (reshape a [none, some 1]) (Is2 · fun (i : Fin n) (_ : Fin 1) => x i) := by
  refine ⟨⟨[n, 1], fun i => a.dat (unravel a.shape (ravel [n, 1] i))⟩, ?_, rfl, fun i j => ?_⟩
  · simp [reshape, size, h.1]
  · simp [ravel, unravel, h.1, h.2]

theorem reshape_row {a : Arr α} {x : Fin n → α} (h : Is1 a x) :
    Ok (reshape a [some 1, none]) (Is2 · fun (_ : Fin 1) (i : Fin n) => x i) := by
  refine ⟨⟨[1, n], fun i => a.dat (unravel a.shape (ravel [1, n] i))⟩, ?_, rfl, fun i j => ?_⟩
  · simp [reshape, size, h.1]
  · simp [ravel, unravel, h.1, h.2]

theorem reshape_cube {a : Arr α} {x : Fin n → Fin m → α} (h : Is2 a x) :
    Ok (reshape a [some n, some m, some 1]) (Is3 · fun i j (_ : Fin 1) => x i j) := by
  refine ⟨⟨[n, m, 1], fun i => a.dat (unravel a.shape (ravel [n, m, 1] i))⟩, ?_, rfl, fun i j l => ?_⟩
  · simp [reshape, size, h.1]
  · have e : ravel [n, m, 1] [i.1, j.1, l.1] = ravel [n, m] [i.1, j.1] := by simp [ravel]
    simp only [e, h.1]
    rw [unravel_ravel (by simp), h.2]

/-- outer product of a column and a row -/
theorem map2_outer {f : α → β → γ} {a : Arr α} {b : Arr β} {x : Fin n → Fin 1 → α} {y : Fin 1 → Fin m → β} (ha : Is2 a x)
    (hb : Is2 b y) : Ok (map2 f a b) (Is2 · fun i j => f (x i 0) (y 0 j)) := by
  have hs : bcShape [n, 1] [1, m] = .ok [n, m] := by
    by_cases h : m = 1
    · subst h; simp [bcShape, bcRev, Except.map]
    · simp [bcShape, bcRev, Except.map, Ne.symm h, h]
  refine ⟨_, by rw [map2, ha.1, hb.1, hs], rfl, fun i j => ?_⟩
  have e1 : bcIdx [n, 1] [i.1, j.1] = [i.1, ((0 : Fin 1) : ℕ)] := by
    simp [bcIdx]; omega
  have e2 : bcIdx [1, m] [i.1, j.1] = [((0 : Fin 1) : ℕ), j.1] := by
    simp [bcIdx]; omega
  simp only [e1, e2, ha.2, hb.2]

/-- a matrix times a row -/
theorem map2_row {f : α → β → γ} {a : Arr α} {b : Arr β} {x : Fin n → Fin m → α} {y : Fin 1 → Fin m → β} (ha : Is2 a x)
    (hb : Is2 b y) : Ok (map2 f a b) (Is2 · fun i j => f (x i j) (y 0 j)) := by
  have hs : bcShape [n, m] [1, m] = .ok [n, m] := by simp [bcShape, bcRev, Except.map]
  refine ⟨_, by rw [map2, ha.1, hb.1, hs], rfl, fun i j => ?_⟩
  have e2 : bcIdx [1, m] [i.1, j.1] = [((0 : Fin 1) : ℕ), j.1] := by
    simp [bcIdx]; omega
  simp only [bcIdx_two i.2 j.2, e2, ha.2, hb.2]

end Nd

namespace Nd
open Py
variable {α β γ : Type} {n m p : ℕ}

/-! ### Arbitrary shapes -/

theorem bcIdx_self {s idx : List ℕ} (h : List.Forall₂ (· < ·) idx s) : bcIdx s idx = idx := by
  have hl := h.length_eq
  simp only [bcIdx, hl, Nat.sub_self, List.drop_zero]
  induction h with
  | nil => rfl
  | @cons i d idx s hid h ih =>
    simp only [List.zip_cons_cons, List.map_cons]
    rw [ih h.length_eq]
    split_ifs with h1
    · subst h1; rw [Nat.lt_one_iff.1 hid]
    · rfl

/-- an array of any shape with a scalar -/
theorem map2_any0 {f : α → β → γ} {a : Arr α} {b : Arr β} {y : β} (hb : Is0 b y) :
    map2 f a b = .ok ⟨a.shape, fun i => f (a.dat (bcIdx a.shape i)) y⟩ := by
  simp [map2, hb.1, hb.2]

theorem map2_0any {f : α → β → γ} {a : Arr α} {b : Arr β} {x : α} (ha : Is0 a x) :
    map2 f a b = .ok ⟨b.shape, fun i => f x (b.dat (bcIdx b.shape i))⟩ := by
  simp [map2, ha.1, ha.2]

theorem map2_shape {f : α → β → γ} {a : Arr α} {b : Arr β} {s : List ℕ} (h : bcShape a.shape b.shape = .ok s) :
    map2 f a b = .ok ⟨s, fun i => f (a.dat (bcIdx a.shape i)) (b.dat (bcIdx b.shape i))⟩ := by
  simp [map2, h]

theorem Raises.bind {r : Except PyErr α} {k : α → Except PyErr β} (h : Raises r) : Raises (r >>= k) := by
  obtain ⟨e, rfl⟩ := h
  exact ⟨e, rfl⟩

/-- whatever the first step returns, the rest raises -/
theorem Raises.bind' {r : Except PyErr α} {k : α → Except PyErr β} (h : ∀ a, r = .ok a → Raises (k a)) :
    Raises (r >>= k) := by
  cases r with
  | error e => exact ⟨e, rfl⟩
  | ok a => exact h a rfl

theorem Ok.raises {r : Except PyErr α} {k : α → Except PyErr β} {Q : α → Prop} (h : Ok r Q)
    (hk : ∀ a, Q a → Raises (k a)) : Raises (r >>= k) := by
  obtain ⟨a, rfl, ha⟩ := h
  exact hk a ha

theorem map2_raises {f : α → β → γ} {a : Arr α} {b : Arr β} (h : Raises (bcShape a.shape b.shape)) :
    Raises (map2 f a b) := by
  obtain ⟨e, h⟩ := h
  exact ⟨e, by simp [map2, h]⟩

theorem map2_ok_shape {f : α → β → γ} {a : Arr α} {b : Arr β} {r : Arr γ} (h : map2 f a b = .ok r) :
    bcShape a.shape b.shape = .ok r.shape := by
  unfold map2 at h
  cases hs : bcShape a.shape b.shape with
  | error e => simp [hs] at h
  | ok s => simp [hs] at h; simp [← h]

theorem not_raises_of_ok {r : Except PyErr α} {Q : α → Prop} (h : Ok r Q) : ¬ Raises r := by
  rintro ⟨e, he⟩
  obtain ⟨a, ha, -⟩ := h
  rw [he] at ha
  cases ha

end Nd
