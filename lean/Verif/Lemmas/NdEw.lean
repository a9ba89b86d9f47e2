import Verif.Lemmas.NdPhot
import Verif.Model.NdEw

/-! Shapes in the equivalent-width kernels. -/
namespace Dsps.NdEw
open Nd Py Dsps.NdCosmo Dsps.NdSed

variable {L : (n : ℕ) → EquivalentWidth.Lstsq n} {n m N K : ℕ}

/-- a number: a scalar or an array of one entry -/
def IsNum (a : Arr ℝ) (x : ℝ) : Prop := Is0 a x ∨ Is1 a fun _ : Fin 1 => x

theorem map2_1num {γ : Type} {f : ℝ → ℝ → γ} {a b : Arr ℝ} {u : Fin N → ℝ} {x : ℝ} (ha : Is1 a u) (hb : IsNum b x) :
    Ok (map2 f a b) (Is1 · fun i => f (u i) x) := by
  rcases hb with hb | hb
  · exact map2_10 ha hb
  · refine ⟨_, map2_shape (s := [N]) ?_, rfl, fun i => ?_⟩
    · rw [ha.1, hb.1]
      by_cases h : N = 1 <;> simp [bcShape, bcRev, Except.map]
    · have e : bcIdx b.shape [i.1] = [((0 : Fin 1) : ℕ)] := by simp [hb.1, bcIdx]
      simp only [e, hb.2, ha.1, bcIdx_one i.2, ha.2]

open Classical in
theorem where_100 {c : Arr Prop} {p : Fin N → Prop} (x y : ℝ) (hc : Is1 c p) :
    Ok (where_ c (scal x) (scal y)) (Is1 · fun i => if p i then x else y) := by
  refine (map2_00 (Is0.scal x) (Is0.scal y)).bind fun ab hab => (map2_10 hc hab).mono fun r hr => hr.congr fun i => ?_
  simp only

theorem quadfit_ok {w a b c d : Arr ℝ} {u : Fin N → ℝ} {xa xb xc xd : ℝ} (hw : Is1 w u) (ha : IsNum a xa) (hb : IsNum b xb)
    (hc : IsNum c xc) (hd : IsNum d xd) :
    Ok (get_quadfit_weights w a b c d) (Is1 · fun i => EquivalentWidth.get_quadfit_weights (u i) xa xb xc xd) := by
  refine (map2_1num hw ha).bind fun p1 h1 => (map2_1num hw hb).bind fun p2 h2 => (map2_11 h1 h2).bind fun p3 h3 => ?_
  refine (map2_1num hw hc).bind fun p4 h4 => (map2_1num hw hd).bind fun p5 h5 => (map2_11 h4 h5).bind fun p6 h6 => ?_
  refine (map2_11 h3 h6).bind fun p7 h7 => (where_100 1 0 h7).mono fun r hr => hr.congr fun i => ?_
  simp only [EquivalentWidth.get_quadfit_weights]
  congr

theorem intw_ok {w a b : Arr ℝ} {u : Fin N → ℝ} {xa xb : ℝ} (hw : Is1 w u) (ha : IsNum a xa) (hb : IsNum b xb) :
    Ok (get_integration_weights w a b) (Is1 · fun i => EquivalentWidth.get_integration_weights (u i) xa xb) := by
  refine (map2_1num hw ha).bind fun p1 h1 => (map2_1num hw hb).bind fun p2 h2 => (map2_11 h1 h2).bind fun p3 h3 => ?_
  refine (where_100 1 0 h3).mono fun r hr => hr.congr fun i => ?_
  simp only [EquivalentWidth.get_integration_weights]
  congr

theorem vander_ok {x : Arr ℝ} {u : Fin N → ℝ} (h : Is1 x u) : Ok (vander3 x) (Is2 · (EquivalentWidth.vander3 u)) := by
  refine ⟨_, by rw [vander3, h.1], rfl, fun i k => ?_⟩
  simp only [h.2, EquivalentWidth.vander3]

theorem newaxis1_ok {w : Arr ℝ} {u : Fin N → ℝ} (h : Is1 w u) : Ok (newaxis1 w) (Is2 · fun i (_ : Fin 1) => u i) := by
  refine ⟨_, by rw [newaxis1, h.1], rfl, fun i k => ?_⟩
  simp only [h.2]

theorem newaxis0_ok {w : Arr ℝ} {u : Fin N → ℝ} (h : Is1 w u) : Ok (newaxis0 w) (Is2 · fun (_ : Fin 1) i => u i) := by
  refine ⟨_, by rw [newaxis0, h.1], rfl, fun k i => ?_⟩
  simp only [List.tail_cons, h.2]

theorem map2_22 {f : ℝ → ℝ → ℝ} {a b : Arr ℝ} {x y : Fin N → Fin K → ℝ} (ha : Is2 a x) (hb : Is2 b y) :
    Ok (map2 f a b) (Is2 · fun i j => f (x i j) (y i j)) := by
  refine ⟨_, map2_shape (s := [N, K]) (by rw [ha.1, hb.1, bcShape_self]), rfl, fun i j => ?_⟩
  simp only [ha.1, hb.1, bcIdx_two i.2 j.2, ha.2, hb.2]

/-- a matrix times a column -/
theorem map2_col {f : ℝ → ℝ → ℝ} {a b : Arr ℝ} {x : Fin N → Fin K → ℝ} {y : Fin N → Fin 1 → ℝ} (ha : Is2 a x) (hb : Is2 b y) :
    Ok (map2 f a b) (Is2 · fun i j => f (x i j) (y i 0)) := by
  have hs : bcShape [N, K] [N, 1] = .ok [N, K] := by
    by_cases h : K = 1 <;> simp [bcShape, bcRev, Except.map]
  refine ⟨_, by rw [map2, ha.1, hb.1, hs], rfl, fun i j => ?_⟩
  have e2 : bcIdx [N, 1] [i.1, j.1] = [i.1, ((0 : Fin 1) : ℕ)] := by
    simp [bcIdx]; omega
  simp only [bcIdx_two i.2 j.2, e2, ha.2, hb.2]

/-- a matrix and a vector along its last axis -/
theorem map2_21 {f : ℝ → ℝ → ℝ} {a b : Arr ℝ} {x : Fin N → Fin K → ℝ} {y : Fin K → ℝ} (ha : Is2 a x) (hb : Is1 b y) :
    Ok (map2 f a b) (Is2 · fun i j => f (x i j) (y j)) := by
  have hs : bcShape [N, K] [K] = .ok [N, K] := by simp [bcShape, bcRev, Except.map]
  refine ⟨_, by rw [map2, ha.1, hb.1, hs], rfl, fun i j => ?_⟩
  have e2 : bcIdx [K] [i.1, j.1] = [j.1] := by
    simp [bcIdx]; omega
  simp only [bcIdx_two i.2 j.2, e2, ha.2, hb.2]

theorem map2_12 {f : ℝ → ℝ → ℝ} {a b : Arr ℝ} {x : Fin N → Fin K → ℝ} {y : Fin K → ℝ} (ha : Is1 a y) (hb : Is2 b x) :
    Ok (map2 f a b) (Is2 · fun i j => f (y j) (x i j)) := by
  have hs : bcShape [K] [N, K] = .ok [N, K] := by simp [bcShape, bcRev, Except.map]
  refine ⟨_, by rw [map2, ha.1, hb.1, hs], rfl, fun i j => ?_⟩
  have e2 : bcIdx [K] [i.1, j.1] = [j.1] := by
    simp [bcIdx]; omega
  simp only [bcIdx_two i.2 j.2, e2, ha.2, hb.2]

/-- a column and a vector: a matrix -/
theorem map2_c1 {f : ℝ → ℝ → ℝ} {a b : Arr ℝ} {x : Fin N → Fin 1 → ℝ} {y : Fin K → ℝ} (ha : Is2 a x) (hb : Is1 b y) :
    Ok (map2 f a b) (Is2 · fun i j => f (x i 0) (y j)) := by
  have hs : bcShape [N, 1] [K] = .ok [N, K] := by
    by_cases h : K = 1
    · subst h; simp [bcShape, bcRev, Except.map]
    · simp [bcShape, bcRev, Except.map, Ne.symm h, h]
  refine ⟨_, by rw [map2, ha.1, hb.1, hs], rfl, fun i j => ?_⟩
  have e1 : bcIdx [N, 1] [i.1, j.1] = [i.1, ((0 : Fin 1) : ℕ)] := by
    simp [bcIdx]; omega
  have e2 : bcIdx [K] [i.1, j.1] = [j.1] := by
    simp [bcIdx]; omega
  simp only [e1, e2, ha.2, hb.2]

theorem map2_1c {f : ℝ → ℝ → ℝ} {a b : Arr ℝ} {x : Fin N → Fin 1 → ℝ} {y : Fin K → ℝ} (ha : Is1 a y) (hb : Is2 b x) :
    Ok (map2 f a b) (Is2 · fun i j => f (y j) (x i 0)) := by
  have hs : bcShape [K] [N, 1] = .ok [N, K] := by
    simp [bcShape, bcRev, Except.map]
  refine ⟨_, by rw [map2, ha.1, hb.1, hs], rfl, fun i j => ?_⟩
  have e1 : bcIdx [N, 1] [i.1, j.1] = [i.1, ((0 : Fin 1) : ℕ)] := by
    simp [bcIdx]; omega
  have e2 : bcIdx [K] [i.1, j.1] = [j.1] := by
    simp [bcIdx]; omega
  simp only [e1, e2, ha.2, hb.2]

/-- the scales of the columns -/
noncomputable def colScale (u w : Fin N → ℝ) (k : Fin 3) : ℝ :=
  Real.sqrt (∑ i, EquivalentWidth.vander3 u i k * w i * (EquivalentWidth.vander3 u i k * w i))

/-- the scaled matrix -/
noncomputable def design (u w : Fin N → ℝ) : Matrix (Fin N) (Fin 3) ℝ :=
  fun i k => EquivalentWidth.vander3 u i k * w i / colScale u w k

theorem fit_eq (l : EquivalentWidth.Lstsq N) (u f w : Fin N → ℝ) (k : Fin 3) :
    EquivalentWidth.weighted_quadratic_fit l u f w k = l (design u w) (fun i => f i * w i) k / colScale u w k := rfl

theorem lhs_ok {β : Type} {x w : Arr ℝ} {u v : Fin N → ℝ} (hx : Is1 x u) (hw : Is1 w v) {Q : β → Prop} {y : Arr ℝ}
    {k : Arr ℝ → Arr ℝ → Arr ℝ → Except PyErr β} {R : Arr ℝ → Prop} (hy : Ok (map2 (· * ·) y w) R)
    (hk : ∀ lhs rhs scale, Is2 lhs (design u v) → R rhs → Is1 scale (colScale u v) → Ok (k lhs rhs scale) Q) :
    Ok (do
      let lhs ← vander3 x
      let lhs ← map2 (· * ·) lhs (← newaxis1 w)
      let rhs ← map2 (· * ·) y w
      let scale := map Real.sqrt (← sum0 (← map2 (· * ·) lhs lhs))
      let lhs ← map2 (· / ·) lhs (← newaxis0 scale)
      k lhs rhs scale) Q := by
  refine (vander_ok hx).bind fun l0 h0 => (newaxis1_ok hw).bind fun w1 h1 => (map2_col h0 h1).bind fun l1 h2 => ?_
  refine hy.bind fun rhs hr => (map2_22 h2 h2).bind fun sq hsq => ?_
  have hsum : Ok (sum0 sq) (Is1 · fun k : Fin 3 => ∑ i, EquivalentWidth.vander3 u i k * v i * (EquivalentWidth.vander3 u i k * v i)) := by
    refine ⟨_, by rw [sum0, hsq.1], rfl, fun k => ?_⟩
    simp only
    rw [sum_range_fin]
    exact Finset.sum_congr rfl fun i _ => hsq.2 i k
  refine hsum.bind fun s hs => ?_
  have hsc := hs.map Real.sqrt
  refine (newaxis0_ok hsc).bind fun s1 hs1 => (map2_row h2 hs1).bind fun lhs hl => hk _ _ _ ?_ hr hsc
  exact hl

theorem transpose_1 {a : Arr ℝ} {x : Fin N → ℝ} (h : Is1 a x) : Is1 (transpose a) x :=
  ⟨by simp [transpose, h.1], fun i => by simp [transpose, h.2]⟩

theorem transpose_2 {a : Arr ℝ} {x : Fin N → Fin K → ℝ} (h : Is2 a x) : Is2 (transpose a) fun j i => x i j :=
  ⟨by simp [transpose, h.1], fun i j => by simp [transpose, h.2]⟩

theorem lstsq_1 {a b : Arr ℝ} {A : Matrix (Fin N) (Fin 3) ℝ} {y : Fin N → ℝ} (ha : Is2 a A) (hb : Is1 b y) :
    Ok (lstsq L a b) (Is1 · (L N A y)) := by
  refine ⟨_, by rw [lstsq, ha.1, hb.1]; exact if_pos rfl, rfl, fun k => ?_⟩
  have e1 : (fun (i : Fin N) (c : Fin 3) => a.dat [i.1, c.1]) = A := by funext i c; exact ha.2 i c
  have e2 : (fun i : Fin N => b.dat [i.1]) = y := by funext i; exact hb.2 i
  simp only [k.2, dif_pos, e1, e2]

theorem lstsq_2 {a b : Arr ℝ} {A : Matrix (Fin N) (Fin 3) ℝ} {y : Fin N → Fin K → ℝ} (ha : Is2 a A) (hb : Is2 b y) :
    Ok (lstsq L a b) (Is2 · fun k j => L N A (fun i => y i j) k) := by
  refine ⟨_, by rw [lstsq, ha.1, hb.1]; exact if_pos rfl, rfl, fun k j => ?_⟩
  have e1 : (fun (i : Fin N) (c : Fin 3) => a.dat [i.1, c.1]) = A := by funext i c; exact ha.2 i c
  have e2 : (fun i : Fin N => b.dat [i.1, j.1]) = fun i => y i j := by funext i; exact hb.2 i j
  simp only [k.2, dif_pos, e1, e2]

/-- one right-hand side -/
theorem fit_1 {x y w : Arr ℝ} {u f v : Fin N → ℝ} (hx : Is1 x u) (hy : Ok (map2 (· * ·) y w) (Is1 · fun i => f i * v i))
    (hw : Is1 w v) : Ok (weighted_quadratic_fit L x y w) (Is1 · (EquivalentWidth.weighted_quadratic_fit (L N) u f v)) := by
  refine lhs_ok (k := fun lhs rhs scale => do
    let c ← lstsq L lhs rhs
    let q ← map2 (· / ·) (transpose c) scale
    return transpose q) hx hw hy fun lhs rhs scale h1 h2 h3 => ?_
  refine (lstsq_1 h1 h2).bind fun c hc => (map2_11 (transpose_1 hc) h3).bind fun q hq => .pure ?_
  exact transpose_1 hq

/-- a matrix of right-hand sides -/
theorem fit_2 {x y w : Arr ℝ} {u v : Fin N → ℝ} {Y : Fin N → Fin K → ℝ} (hx : Is1 x u)
    (hy : Ok (map2 (· * ·) y w) (Is2 · Y)) (hw : Is1 w v) :
    Ok (weighted_quadratic_fit L x y w) (Is2 · fun k j => L N (design u v) (fun i => Y i j) k / colScale u v k) := by
  refine lhs_ok (k := fun lhs rhs scale => do
    let c ← lstsq L lhs rhs
    let q ← map2 (· / ·) (transpose c) scale
    return transpose q) hx hw hy fun lhs rhs scale h1 h2 h3 => ?_
  refine (lstsq_2 h1 h2).bind fun c hc => (map2_21 (transpose_2 hc) h3).bind fun q hq => .pure ?_
  exact transpose_2 hq

theorem unpack_1 {c : Arr ℝ} {x : Fin 3 → ℝ} (h : Is1 c x) :
    Ok (unpack3 c) fun r => Is0 r.1 (x 0) ∧ Is0 r.2.1 (x 1) ∧ Is0 r.2.2 (x 2) :=
  ⟨(row c [] 0, row c [] 1, row c [] 2), by rw [unpack3, h.1]; rfl, ⟨rfl, h.2 0⟩, ⟨rfl, h.2 1⟩, ⟨rfl, h.2 2⟩⟩

theorem unpack_2 {c : Arr ℝ} {x : Fin 3 → Fin K → ℝ} (h : Is2 c x) :
    Ok (unpack3 c) fun r => Is1 r.1 (x 0) ∧ Is1 r.2.1 (x 1) ∧ Is1 r.2.2 (x 2) :=
  ⟨(row c [K] 0, row c [K] 1, row c [K] 2), by rw [unpack3, h.1]; rfl, ⟨rfl, h.2 0⟩, ⟨rfl, h.2 1⟩, ⟨rfl, h.2 2⟩⟩

/-- `_ew_kernel` returns the first two outputs of `_continuum_line_decomp_kern`. -/
theorem ew_eq (w f a b c d e g h : Arr ℝ) :
    ew_kernel L w f a b c d e g h = (fun r => (r.1, r.2.1)) <$> continuum_line_decomp_kern L w f a b c d e g h := by
  simp only [ew_kernel, continuum_line_decomp_kern, map_bind, map_pure]

/-- the shapes of flux that survive the fit -/
def Accepted (N : ℕ) (s : List ℕ) : Prop := s = [] ∨ s = [1] ∨ s = [N] ∨ s = [N, 1] ∨ s = [N, N]

theorem bc_flux {s t : List ℕ} (hN : N ≠ 1) (h : bcShape s [N] = .ok t) (ht : t = [N] ∨ ∃ q, t = [N, q]) : Accepted N s := by
  obtain ⟨r, rfl⟩ : ∃ r : List ℕ, s = r.reverse := ⟨s.reverse, by simp⟩
  rw [bcShape, List.reverse_reverse] at h
  rcases r with _ | ⟨x, a⟩
  · exact Or.inl rfl
  · have hc : (x = N ∨ x = 1) ∧ t.reverse = N :: a := by
      simp only [List.reverse_cons, List.reverse_nil, List.nil_append, bcRev, hN, or_false] at h
      split_ifs at h with h1 h2
      · rw [bcRev_nil] at h
        simp only [Except.map, Except.ok.injEq] at h
        exact ⟨Or.inl h1, by rw [← h, List.reverse_reverse, h1]⟩
      · rw [bcRev_nil] at h
        simp only [Except.map, Except.ok.injEq] at h
        exact ⟨Or.inr h2, by rw [← h, List.reverse_reverse]⟩
      · simp [Except.map] at h
    obtain ⟨hx, hr⟩ := hc
    rcases ht with rfl | ⟨q, rfl⟩
    · simp only [List.reverse_cons, List.reverse_nil, List.nil_append, List.cons.injEq, true_and] at hr
      subst hr
      rcases hx with rfl | rfl <;> simp [Accepted]
    · simp only [List.reverse_cons, List.reverse_nil, List.nil_append, List.singleton_append, List.cons.injEq] at hr
      obtain ⟨-, rfl⟩ := hr
      rcases hx with rfl | rfl <;> simp [Accepted]

theorem lstsq_raises {a b : Arr ℝ} {A : Matrix (Fin N) (Fin 3) ℝ} (ha : Is2 a A)
    (hb : ¬ (b.shape = [N] ∨ ∃ q, b.shape = [N, q])) : Raises (lstsq L a b) := by
  rw [lstsq, ha.1]
  rcases h : b.shape with _ | ⟨m, _ | ⟨q, _ | _⟩⟩
  · exact ⟨_, rfl⟩
  · have : N ≠ m := by rintro rfl; exact hb (Or.inl h)
    exact ⟨_, if_neg this⟩
  · have : N ≠ m := by rintro rfl; exact hb (Or.inr ⟨q, h⟩)
    exact ⟨_, if_neg this⟩
  · exact ⟨_, rfl⟩

theorem fit_raises {x y w : Arr ℝ} {u v : Fin N → ℝ} (hx : Is1 x u) (hw : Is1 w v) (hN : N ≠ 1) (hy : ¬ Accepted N y.shape) :
    Raises (weighted_quadratic_fit L x y w) := by
  refine (vander_ok hx).raises fun l0 h0 => (newaxis1_ok hw).raises fun w1 h1 => (map2_col h0 h1).raises fun l1 h2 => ?_
  refine Raises.bind' fun rhs hr => ?_
  have hs := map2_ok_shape hr
  rw [hw.1] at hs
  refine (map2_22 h2 h2).raises fun sq hsq => ?_
  have hsum : Ok (sum0 sq) (Is1 · fun k : Fin 3 => ∑ i, EquivalentWidth.vander3 u i k * v i * (EquivalentWidth.vander3 u i k * v i)) := by
    refine ⟨_, by rw [sum0, hsq.1], rfl, fun k => ?_⟩
    simp only
    rw [sum_range_fin]
    exact Finset.sum_congr rfl fun i _ => hsq.2 i k
  refine hsum.raises fun s hs' => (newaxis0_ok (hs'.map Real.sqrt)).raises fun s1 hs1 => ?_
  refine (map2_row h2 hs1).raises fun lhs hl => Raises.bind (lstsq_raises hl fun hb => hy (bc_flux hN hs hb))

end Dsps.NdEw
