import Verif.Model.NdBurst
import Verif.Lemmas.NdElemFun

/-! C131: burst age weights for parameters and tables of any shapes.  C132: the metallicity parameter transformations on batches. -/
namespace Dsps.Lemmas
open Nd Dsps

theorem sumShape_congr {o : List ℕ} {f g : List ℕ → ℝ} (h : ∀ idx, Pos o idx → f idx = g idx) : sumShape o f = sumShape o g := by
  induction o generalizing f g with
  | nil => exact h [] .nil
  | cons d s ih =>
    simp only [sumShape]
    refine Finset.sum_congr rfl fun i hi => ih fun idx hidx => h _ (.cons (Finset.mem_range.1 hi) hidx)

theorem elw_sumAll {S : Set (List ℕ)} {g : List ℕ → ℝ} {x : E} {o : List ℕ} (h : Elw S g x) (ho : Broadcasts S o) :
    Elw ∅ (fun _ => sumShape o g) (E.sumAll x) := by
  obtain ⟨a, rfl, hs, hd⟩ := h.1 o ho
  have : sumShape o g = sumShape a.shape a.dat := by
    rw [hs]
    refine sumShape_congr fun idx hi => ?_
    have := hd idx hi.length.ge
    rw [bcIdx_pos hi] at this; exact this.symm
  rw [this]
  exact Elw.ret _

theorem elw_le {S T : Set (List ℕ)} {g h : List ℕ → ℝ} {x y : E} (hx : Elw S g x) (hy : Elw T h y) :
    Elw (S ∪ T) (fun i => g i ≤ h i) (E.le x y) := hx.map2 hy _
macro_rules | `(tactic| elw1) => `(tactic| with_reducible apply elw_le)

/-- the divisor of `_zero_safe_normalize` for an array of shape `o` and elements `g` -/
noncomputable def safeSum (o : List ℕ) (g : List ℕ → ℝ) : ℝ := if sumShape o g ≤ 0 then 1 else sumShape o g

theorem elw_zero_safe_normalize {S : Set (List ℕ)} {g : List ℕ → ℝ} {x : E} {o : List ℕ} (h : Elw S g x) (ho : Broadcasts S o) :
    Elw S (fun i => g i / safeSum o g) (NdBurst.zero_safe_normalize x) := by
  have hsum := elw_sumAll h ho
  apply Elw.congr (r := NdBurst.zero_safe_normalize x)
  case h =>
    unfold NdBurst.zero_safe_normalize
    try dsimp only
    elwf
  case hS => ext t; simp only [Set.mem_union, Set.mem_empty_iff_false, or_false, false_or]
  case hg => intro i; simp only [safeSum] <;> congr!

theorem elw_pureburst_kernel {S0 S1 S2 : Set (List ℕ)} {g0 g1 g2 : List ℕ → ℝ} {x0 x1 x2 : E}
    (h0 : Elw S0 g0 x0) (h1 : Elw S1 g1 x1) (h2 : Elw S2 g2 x2) :
    Elw (S0 ∪ S1 ∪ S2) (fun i => Utils.triweight_gaussian (g0 i) (g1 i) ((g2 i - g1 i) / 3)) (NdBurst.pureburst_kernel x0 x1 x2) := by
  apply Elw.congr (r := NdBurst.pureburst_kernel x0 x1 x2)
  case h =>
    unfold NdBurst.pureburst_kernel
    try dsimp only
    elwf
  case hS => ext t; simp only [Set.mem_union, Set.mem_empty_iff_false, or_false, false_or] <;> tauto
  case hg => intro i; congr 1 <;> ring

theorem raises_lift2 {f : ℝ → ℝ → ℝ} {x y : E} (h : Raises (β := Arr ℝ) x ∨ Raises (β := Arr ℝ) y) : Raises (β := Arr ℝ) (E.lift2 f x y) := by
  rcases h with ⟨e, rfl⟩ | ⟨e, rfl⟩
  · exact ⟨e, rfl⟩
  · cases x with
    | error e' => exact ⟨e', rfl⟩
    | ok a => exact ⟨e, rfl⟩

theorem raises_normalize {x : E} (h : Raises (β := Arr ℝ) x) : Raises (β := Arr ℝ) (NdBurst.zero_safe_normalize x) :=
  raises_lift2 (.inl h)

end Dsps.Lemmas

namespace Dsps.Props
open Nd Dsps Dsps.Lemmas

/-! ### C131 -/

/-- the burst kernel (before normalisation) at a position: a triweight bump centred on `lgyr_peak` that vanishes beyond `lgyr_max` -/
noncomputable def burstAt (pk mx ages : Arr ℝ) (i : List ℕ) : ℝ :=
  Utils.triweight_gaussian (ages.bat i + 9.0) (pk.bat i) ((mx.bat i - pk.bat i) / 3)

/-- C131: exactly what `calc_bursty_age_weights` does with arguments of any shapes.  The burst part is the bump divided by its sum over *all positions of the
array it is computed on*, whatever its rank. -/
theorem C131_any_shapes (lgfburst pk mx smooth ages : Arr ℝ) :
    (∀ o, Broadcasts {s | s ∈ [ages.shape, pk.shape, mx.shape]} o →
      Elementwise [lgfburst.shape, pk.shape, mx.shape, smooth.shape, ages.shape]
        (NdBurst.calc_bursty_age_weights (.arr lgfburst) (.arr pk) (.arr mx) (.arr smooth) (.arr ages))
        (fun i => (10 : ℝ) ^ lgfburst.bat i *
            (burstAt pk mx ages i / if sumShape o (burstAt pk mx ages) ≤ 0 then 1 else sumShape o (burstAt pk mx ages)) +
          (1 - (10 : ℝ) ^ lgfburst.bat i) * smooth.bat i)) ∧
    ((∀ o, ¬ Broadcasts {s | s ∈ [ages.shape, pk.shape, mx.shape]} o) →
      Raises (β := Arr ℝ) (NdBurst.calc_bursty_age_weights (.arr lgfburst) (.arr pk) (.arr mx) (.arr smooth) (.arr ages))) := by
  have hk : Elw {s | s ∈ [ages.shape, pk.shape, mx.shape]} (burstAt pk mx ages) (NdBurst.pureburst_kernel (.arr ages + 9.0) (.arr pk) (.arr mx)) := by
    refine (elw_pureburst_kernel (Elw.add (Elw.arr ages) (Elw.ofSci 90 true 1)) (Elw.arr pk) (Elw.arr mx)).congr ?_ (fun i => rfl)
    ext; simp only [Set.mem_union, Set.mem_singleton_iff, Set.mem_setOf_eq, List.mem_cons, List.not_mem_nil, or_false, or_assoc,
      Set.mem_empty_iff_false]
  constructor
  · intro o ho
    have hn := elw_zero_safe_normalize hk ho
    have h1 := Elw.arr lgfburst
    have h2 := Elw.arr smooth
    refine Elw.elementwise (S := {lgfburst.shape, pk.shape, mx.shape, smooth.shape, ages.shape}) ?_ (by ext; simp)
    apply Elw.congr (r := NdBurst.calc_bursty_age_weights (.arr lgfburst) (.arr pk) (.arr mx) (.arr smooth) (.arr ages))
    case h =>
      unfold NdBurst.calc_bursty_age_weights NdBurst.pureburst_age_weights_from_params
      dsimp only
      elwf
    case hS =>
      ext
      simp only [Set.mem_union, Set.mem_singleton_iff, Set.mem_setOf_eq, List.mem_cons, List.not_mem_nil, or_false, Set.mem_insert_iff,
        Set.mem_empty_iff_false, false_or]
      tauto
    case hg => intro i; rfl
  · intro hno
    have := hk.2 hno
    exact raises_lift2 (.inl (raises_lift2 (.inr (raises_normalize this))))

theorem bcIdx_pair {n m i j : ℕ} (hi : i < m) (hj : j < n) : bcIdx [m, 1] [i, j] = [i, 0] ∧ bcIdx [n] [i, j] = [j] := by
  constructor <;> simp [bcIdx] <;> omega

/-- C131: with the documented shapes (three numbers, two tables of one length) the result is the one-dimensional table of the scalar model -/
theorem C131_documented_partial {n : ℕ} {lgfburst pk mx smooth ages : Arr ℝ} {a b c : ℝ} {w g : Fin n → ℝ} (h1 : Is0 lgfburst a) (h2 : Is0 pk b)
    (h3 : Is0 mx c) (h4 : Is1 smooth w) (h5 : Is1 ages g) :
    ∃ r, NdBurst.calc_bursty_age_weights (.arr lgfburst) (.arr pk) (.arr mx) (.arr smooth) (.arr ages) = .ok r ∧
      Is1 r (Diffburst.calc_bursty_age_weights ⟨a, b, c⟩ w g) := by
  have ho : Broadcasts {s | s ∈ [ages.shape, pk.shape, mx.shape]} [n] := by
    rw [h2.1, h3.1, h5.1]; intro k; rcases k with _ | k <;> simp
  have hall : Broadcasts {s | s ∈ [lgfburst.shape, pk.shape, mx.shape, smooth.shape, ages.shape]} [n] := by
    rw [h1.1, h2.1, h3.1, h4.1, h5.1]; intro k; rcases k with _ | k <;> simp
  obtain ⟨r, hr, hs, hd⟩ := ((C131_any_shapes lgfburst pk mx smooth ages).1 _ ho).1 _ hall
  refine ⟨r, hr, hs, fun i => ?_⟩
  have hb : ∀ j : Fin n, burstAt pk mx ages [j.1] = Utils.triweight_gaussian (g j + 9.0) b ((c - b) / 3) := by
    intro j
    simp only [burstAt, Arr.bat, h2.1, h3.1, h5.1, bcIdx_nil, h2.2, h3.2, bcIdx_one j.2, h5.2]
  have hsum : sumShape [n] (burstAt pk mx ages) = ∑ j : Fin n, Utils.triweight_gaussian (g j + 9.0) b ((c - b) / 3) := by
    simp only [sumShape]
    rw [← Fin.sum_univ_eq_sum_range (fun j => burstAt pk mx ages [j])]
    exact Finset.sum_congr rfl fun j _ => hb j
  rw [hd [i.1] (by simp [Pos]), hsum]
  dsimp only
  rw [hb]
  simp only [Arr.bat, h1.1, h4.1, bcIdx_nil, h1.2, bcIdx_one i.2, h4.2]
  have e1 : (0.5 : ℝ) * (b - (c - b) + c) = b := by ring
  have e2 : (c - (b - (c - b))) / 6 = (c - b) / 3 := by ring
  simp only [Diffburst.calc_bursty_age_weights, Diffburst.pureburst_age_weights_from_params, Diffburst.zero_safe_normalize, Jnp.exp10, Jnp.sum, e1, e2]

/-- C131 (not per burst): `q` bursts given as columns of shape `(q, 1)` against one table of `n` ages are accepted, and row `i` is burst `i`, but the bursts are
normalised together: if `S` is the sum of all the bumps, row `i` is `f · bump_i / S + (1 - f) · smooth`. -/
theorem C131_batch {q n : ℕ} {lgfburst pk mx smooth ages : Arr ℝ} {a : ℝ} {b c : Fin q → ℝ} {w g : Fin n → ℝ} (h1 : Is0 lgfburst a)
    (h2 : Is2 pk fun i (_ : Fin 1) => b i) (h3 : Is2 mx fun i (_ : Fin 1) => c i) (h4 : Is1 smooth w) (h5 : Is1 ages g) :
    ∃ r, NdBurst.calc_bursty_age_weights (.arr lgfburst) (.arr pk) (.arr mx) (.arr smooth) (.arr ages) = .ok r ∧
      Is2 r fun (i : Fin q) (j : Fin n) =>
        (10 : ℝ) ^ a * (Utils.triweight_gaussian (g j + 9) (b i) ((c i - b i) / 3) /
          (if ∑ i, ∑ j, Utils.triweight_gaussian (g j + 9) (b i) ((c i - b i) / 3) ≤ 0 then 1
            else ∑ i, ∑ j, Utils.triweight_gaussian (g j + 9) (b i) ((c i - b i) / 3))) + (1 - (10 : ℝ) ^ a) * w j := by
  have ho : Broadcasts {s | s ∈ [ages.shape, pk.shape, mx.shape]} [q, n] := by
    rw [h2.1, h3.1, h5.1]; intro k; rcases k with _ | _ | k <;> simp
  have hall : Broadcasts {s | s ∈ [lgfburst.shape, pk.shape, mx.shape, smooth.shape, ages.shape]} [q, n] := by
    rw [h1.1, h2.1, h3.1, h4.1, h5.1]; intro k; rcases k with _ | _ | k <;> simp
  obtain ⟨r, hr, hs, hd⟩ := ((C131_any_shapes lgfburst pk mx smooth ages).1 _ ho).1 _ hall
  refine ⟨r, hr, hs, fun i j => ?_⟩
  have hb : ∀ (i : Fin q) (j : Fin n), burstAt pk mx ages [i.1, j.1] = Utils.triweight_gaussian (g j + 9) (b i) ((c i - b i) / 3) := by
    intro i j
    obtain ⟨e1, e2⟩ := bcIdx_pair i.2 j.2
    have k2 := h2.2 i 0
    have k3 := h3.2 i 0
    simp only [Fin.val_zero] at k2 k3
    simp only [burstAt, Arr.bat, h2.1, h3.1, h5.1, e1, e2, k2, k3, h5.2]
    norm_num
  have hsum : sumShape [q, n] (burstAt pk mx ages) = ∑ i, ∑ j, Utils.triweight_gaussian (g j + 9) (b i) ((c i - b i) / 3) := by
    simp only [sumShape]
    rw [← Fin.sum_univ_eq_sum_range (fun i => ∑ j ∈ Finset.range n, burstAt pk mx ages [i, j])]
    refine Finset.sum_congr rfl fun i _ => ?_
    rw [← Fin.sum_univ_eq_sum_range (fun j => burstAt pk mx ages [i.1, j])]
    exact Finset.sum_congr rfl fun j _ => hb i j
  rw [hd [i.1, j.1] (by simp [Pos]), hsum]
  dsimp only
  rw [hb]
  simp only [Arr.bat, h1.1, h4.1, bcIdx_nil, h1.2, (bcIdx_pair i.2 j.2).2, h4.2]

/-- C131 (finding): so the age weights of `q ≥ 2` populations do not sum to one each: if the smooth weights do and the age grid sees at least one of the bursts,
all rows together sum to `q - (q - 1) f` instead of `q` -/
theorem C131_batch_loses_mass {q n : ℕ} {lgfburst pk mx smooth ages : Arr ℝ} {a : ℝ} {b c : Fin q → ℝ} {w g : Fin n → ℝ} (h1 : Is0 lgfburst a)
    (h2 : Is2 pk fun i (_ : Fin 1) => b i) (h3 : Is2 mx fun i (_ : Fin 1) => c i) (h4 : Is1 smooth w) (h5 : Is1 ages g)
    (hw : ∑ j, w j = 1) (hseen : 0 < ∑ i, ∑ j, Utils.triweight_gaussian (g j + 9) (b i) ((c i - b i) / 3)) :
    ∃ r, NdBurst.calc_bursty_age_weights (.arr lgfburst) (.arr pk) (.arr mx) (.arr smooth) (.arr ages) = .ok r ∧ r.shape = [q, n] ∧
      ∑ i : Fin q, ∑ j : Fin n, r.dat [i.1, j.1] = q - (q - 1) * (10 : ℝ) ^ a := by
  obtain ⟨r, hr, hs, hd⟩ := C131_batch h1 h2 h3 h4 h5
  refine ⟨r, hr, hs, ?_⟩
  simp only [hd, if_neg (not_le.2 hseen), Finset.sum_add_distrib, ← Finset.mul_sum, hw, ← Finset.sum_div]
  rw [div_self hseen.ne']
  simp only [Finset.sum_const, Finset.card_univ, Fintype.card_fin, nsmul_eq_mul]
  ring

/-- C131 (finding): `q` copies of one burst: every row contains the burst with `1/q` of its strength -/
theorem C131_batch_copies {q n : ℕ} {lgfburst pk mx smooth ages : Arr ℝ} {a b c : ℝ} {w g : Fin n → ℝ} (h1 : Is0 lgfburst a)
    (h2 : Is2 pk fun (_ : Fin q) (_ : Fin 1) => b) (h3 : Is2 mx fun (_ : Fin q) (_ : Fin 1) => c) (h4 : Is1 smooth w) (h5 : Is1 ages g) (hbc : b < c) :
    ∃ r, NdBurst.calc_bursty_age_weights (.arr lgfburst) (.arr pk) (.arr mx) (.arr smooth) (.arr ages) = .ok r ∧
      Is2 r fun (_ : Fin q) (j : Fin n) =>
        (10 : ℝ) ^ a * (Diffburst.pureburst_age_weights_from_params (fun j => g j + 9) b c j / q) + (1 - (10 : ℝ) ^ a) * w j := by
  obtain ⟨r, hr, hs, hd⟩ := C131_batch h1 h2 h3 h4 h5
  refine ⟨r, hr, hs, fun i j => ?_⟩
  rw [hd]
  have e1 : (0.5 : ℝ) * (b - (c - b) + c) = b := by ring
  have e2 : (c - (b - (c - b))) / 6 = (c - b) / 3 := by ring
  simp only [Diffburst.pureburst_age_weights_from_params, Diffburst.zero_safe_normalize, Jnp.sum, e1, e2, Finset.sum_const, Finset.card_univ,
    Fintype.card_fin, nsmul_eq_mul]
  have hq : (0 : ℝ) < q := by
    have : 0 < q := lt_of_le_of_lt (Nat.zero_le _) i.2
    exact_mod_cast this
  have hnn : ∀ j, 0 ≤ Utils.triweight_gaussian (g j + 9) b ((c - b) / 3) := by
    intro j
    have hh : (0 : ℝ) < (c - b) / 3 := by linarith
    simp only [Utils.triweight_gaussian]
    split_ifs with hz
    · exact le_refl _
    · push Not at hz
      have : 0 ≤ 1 - ((g j + 9 - b) / ((c - b) / 3) / 3) ^ 2 := by nlinarith [hz.1, hz.2]
      positivity
  set T := ∑ j, Utils.triweight_gaussian (g j + 9) b ((c - b) / 3) with hT
  have hT0 : 0 ≤ T := Finset.sum_nonneg fun j _ => hnn j
  rcases hT0.eq_or_lt with h0 | h0
  · have hz : Utils.triweight_gaussian (g j + 9) b ((c - b) / 3) = 0 :=
      (Finset.sum_eq_zero_iff_of_nonneg fun j _ => hnn j).1 h0.symm j (Finset.mem_univ j)
    rw [hz]; simp
  · rw [if_neg (not_le.2 (by positivity)), if_neg (not_le.2 h0)]
    congr 2
    field_simp

/-- C131: `q` bursts given as a plain vector raise unless `q = 1`, or `q` is the number of ages … -/
theorem C131_vector_raises {q n : ℕ} (lgfburst mx smooth : Arr ℝ) {pk ages : Arr ℝ} (h2 : pk.shape = [q]) (h5 : ages.shape = [n]) (hne : q ≠ n)
    (hq : q ≠ 1) (hn : n ≠ 1) :
    Raises (β := Arr ℝ) (NdBurst.calc_bursty_age_weights (.arr lgfburst) (.arr pk) (.arr mx) (.arr smooth) (.arr ages)) := by
  refine (C131_any_shapes lgfburst pk mx smooth ages).2 fun o ho => ?_
  have h0 := ho 0
  cases hout : o.reverse[0]? with
  | none => rw [hout] at h0; have := h0 ages.shape (by simp); simp [h5] at this
  | some d =>
    rw [hout] at h0
    have x := h0.1 ages.shape (by simp) n (by simp [h5])
    have y := h0.1 pk.shape (by simp) q (by simp [h2])
    omega

/-- C131: … in which case the `n` bursts are not computed one by one: the result is one table, with burst `j` seen at age `j` only -/
theorem C131_vector_pairs {n : ℕ} {lgfburst pk mx smooth ages : Arr ℝ} {a : ℝ} {b c w g : Fin n → ℝ} (h1 : Is0 lgfburst a) (h2 : Is1 pk b) (h3 : Is1 mx c)
    (h4 : Is1 smooth w) (h5 : Is1 ages g) (hseen : 0 < ∑ j, Utils.triweight_gaussian (g j + 9) (b j) ((c j - b j) / 3)) :
    ∃ r, NdBurst.calc_bursty_age_weights (.arr lgfburst) (.arr pk) (.arr mx) (.arr smooth) (.arr ages) = .ok r ∧
      Is1 r fun j => (10 : ℝ) ^ a * (Utils.triweight_gaussian (g j + 9) (b j) ((c j - b j) / 3) /
        ∑ j, Utils.triweight_gaussian (g j + 9) (b j) ((c j - b j) / 3)) + (1 - (10 : ℝ) ^ a) * w j := by
  have ho : Broadcasts {s | s ∈ [ages.shape, pk.shape, mx.shape]} [n] := by
    rw [h2.1, h3.1, h5.1]; intro k; rcases k with _ | k <;> simp
  have hall : Broadcasts {s | s ∈ [lgfburst.shape, pk.shape, mx.shape, smooth.shape, ages.shape]} [n] := by
    rw [h1.1, h2.1, h3.1, h4.1, h5.1]; intro k; rcases k with _ | k <;> simp
  obtain ⟨r, hr, hs, hd⟩ := ((C131_any_shapes lgfburst pk mx smooth ages).1 _ ho).1 _ hall
  refine ⟨r, hr, hs, fun i => ?_⟩
  have hb : ∀ j : Fin n, burstAt pk mx ages [j.1] = Utils.triweight_gaussian (g j + 9) (b j) ((c j - b j) / 3) := by
    intro j
    simp only [burstAt, Arr.bat, h2.1, h3.1, h5.1, bcIdx_one j.2, h2.2, h3.2, h5.2]
    norm_num
  have hsum : sumShape [n] (burstAt pk mx ages) = ∑ j : Fin n, Utils.triweight_gaussian (g j + 9) (b j) ((c j - b j) / 3) := by
    simp only [sumShape]
    rw [← Fin.sum_univ_eq_sum_range (fun j => burstAt pk mx ages [j])]
    exact Finset.sum_congr rfl fun j _ => hb j
  rw [hd [i.1] (by simp [Pos]), hsum]
  dsimp only
  rw [hb, if_neg (not_le.2 hseen)]
  simp only [Arr.bat, h1.1, h4.1, bcIdx_nil, h1.2, bcIdx_one i.2, h4.2]

/-- C131: the version for unbounded parameters is the bounded one after the element-wise transformations of C130 -/
theorem C131_from_u_params (u1 u2 u3 smooth ages : E) : NdBurst.calc_bursty_age_weights_from_u_params u1 u2 u3 smooth ages =
    NdBurst.calc_bursty_age_weights (NdElem.get_lgfburst_from_u_lgfburst u1) (NdElem.get_lgyr_peak_from_u_lgyr_peak u2)
      (NdElem.get_lgyr_max_from_lgyr_peak (NdElem.get_lgyr_peak_from_u_lgyr_peak u2) u3) smooth ages := rfl

/-- two bursts on a grid of two ages: the weights of the two populations sum to 2 - f instead of 2 -/
example : ∃ r, NdBurst.calc_bursty_age_weights (.arr (scal (-1))) (.arr ⟨[2, 1], fun _ => 6⟩) (.arr ⟨[2, 1], fun _ => 7⟩)
      (.arr ⟨[2], fun _ => 0.5⟩) (.arr ⟨[2], fun i => if i = [0] then -3 else 0⟩) = .ok r ∧ r.shape = [2, 2] ∧
      ∑ i : Fin 2, ∑ j : Fin 2, r.dat [i.1, j.1] = 2 - (2 - 1) * (10 : ℝ) ^ (-1 : ℝ) := by
  have := C131_batch_loses_mass (q := 2) (n := 2) (a := -1) (b := fun _ => 6) (c := fun _ => 7) (w := fun _ => 0.5)
    (g := fun j => if j = 0 then -3 else 0) (lgfburst := scal (-1)) (pk := ⟨[2, 1], fun _ => 6⟩) (mx := ⟨[2, 1], fun _ => 7⟩)
    (smooth := ⟨[2], fun _ => 0.5⟩) (ages := ⟨[2], fun i => if i = [0] then -3 else 0⟩)
    ⟨rfl, rfl⟩ ⟨rfl, fun _ _ => rfl⟩ ⟨rfl, fun _ _ => rfl⟩ ⟨rfl, fun _ => rfl⟩ ⟨rfl, fun i => by fin_cases i <;> simp⟩
    (by norm_num) (by norm_num [Fin.sum_univ_two, Utils.triweight_gaussian])
  simpa using this

/-! ### C132 -/

theorem broadcasts_scalars {S : Set (List ℕ)} {s : List ℕ} (hs : s ∈ S) (h : ∀ t ∈ S, t = s ∨ t = []) : Broadcasts S s := by
  intro k
  cases hk : s.reverse[k]? with
  | none =>
    intro t ht
    rcases h t ht with rfl | rfl
    · exact hk
    · rfl
  | some n =>
    refine ⟨fun t ht m hm => ?_, s, hs, hk⟩
    rcases h t ht with rfl | rfl
    · rw [hk] at hm; simp at hm; exact .inr hm.symm
    · simp at hm

theorem bounded_kernel (u : Arr ℝ) (k : Fin 9) :
    ∃ r, NdUmzr.get_square_bounded_param u (row NdUmzr.pbounds [2] k.1) = .ok r ∧ r.shape = u.shape ∧
      ∀ idx, Pos u.shape idx → r.dat idx = Umzr.get_square_bounded_param (u.dat idx) (Umzr.MZR_PBDICT k) := by
  have hlo := Elw.arr (row (row NdUmzr.pbounds [2] k.1) [] 0)
  have hhi := Elw.arr (row (row NdUmzr.pbounds [2] k.1) [] 1)
  have hE := elw_sigmoid (Elw.arr u) (Elw.mul (Elw.ofSci 5 true 1) (Elw.add hlo hhi)) (Elw.lit Umzr.BOUNDING_K) hlo hhi
  have hb : Broadcasts ({u.shape} ∪ (∅ ∪ ({[]} ∪ {[]})) ∪ ∅ ∪ {[]} ∪ {[]}) u.shape :=
    broadcasts_scalars (by simp) (by intro t ht; simp at ht; tauto)
  obtain ⟨r, hr, hs, hd⟩ := hE.1 _ hb
  refine ⟨r, hr, hs, fun idx hi => ?_⟩
  have := hd idx hi.length.ge
  rw [bcIdx_pos hi] at this
  rw [this]
  have a0 : (row (row NdUmzr.pbounds [2] k.1) [] 0).bat idx = (Umzr.MZR_PBDICT k).1 := by
    simp only [Arr.bat, row, bcIdx_nil, NdUmzr.pbounds]; rw [dif_pos k.2]; simp
  have a1 : (row (row NdUmzr.pbounds [2] k.1) [] 1).bat idx = (Umzr.MZR_PBDICT k).2 := by
    simp only [Arr.bat, row, bcIdx_nil, NdUmzr.pbounds]; rw [dif_pos k.2]; simp
  simp only [a0, a1, Umzr.get_square_bounded_param]
  rw [Arr.bat, bcIdx_pos hi]

theorem unbounded_kernel (u : Arr ℝ) (k : Fin 9) :
    ∃ r, NdUmzr.get_square_unbounded_param u (row NdUmzr.pbounds [2] k.1) = .ok r ∧ r.shape = u.shape ∧
      ∀ idx, Pos u.shape idx → r.dat idx = Umzr.get_square_unbounded_param (u.dat idx) (Umzr.MZR_PBDICT k) := by
  have hlo := Elw.arr (row (row NdUmzr.pbounds [2] k.1) [] 0)
  have hhi := Elw.arr (row (row NdUmzr.pbounds [2] k.1) [] 1)
  have hE := elw_inverse_sigmoid (Elw.arr u) (Elw.mul (Elw.ofSci 5 true 1) (Elw.add hlo hhi)) (Elw.lit Umzr.BOUNDING_K) hlo hhi
  have hb : Broadcasts ({u.shape} ∪ (∅ ∪ ({[]} ∪ {[]})) ∪ ∅ ∪ {[]} ∪ {[]}) u.shape :=
    broadcasts_scalars (by simp) (by intro t ht; simp at ht; tauto)
  obtain ⟨r, hr, hs, hd⟩ := hE.1 _ hb
  refine ⟨r, hr, hs, fun idx hi => ?_⟩
  have := hd idx hi.length.ge
  rw [bcIdx_pos hi] at this
  rw [this]
  have a0 : (row (row NdUmzr.pbounds [2] k.1) [] 0).bat idx = (Umzr.MZR_PBDICT k).1 := by
    simp only [Arr.bat, row, bcIdx_nil, NdUmzr.pbounds]; rw [dif_pos k.2]; simp
  have a1 : (row (row NdUmzr.pbounds [2] k.1) [] 1).bat idx = (Umzr.MZR_PBDICT k).2 := by
    simp only [Arr.bat, row, bcIdx_nil, NdUmzr.pbounds]; rw [dif_pos k.2]; simp
  simp only [a0, a1, Umzr.get_square_unbounded_param]
  rw [Arr.bat, bcIdx_pos hi]

theorem vmap_kernel {f : Arr ℝ → Arr ℝ → Except Py.PyErr (Arr ℝ)} {F : ℝ → ℝ × ℝ → ℝ} {s : List ℕ} {u : Fin 9 → Arr ℝ} (hu : ∀ k, (u k).shape = s)
    (hf : ∀ (v : Arr ℝ) (k : Fin 9), ∃ r, f v (row NdUmzr.pbounds [2] k.1) = .ok r ∧ r.shape = v.shape ∧
      ∀ idx, Pos v.shape idx → r.dat idx = F (v.dat idx) (Umzr.MZR_PBDICT k)) :
    ∃ p : Fin 9 → Arr ℝ, (do
      let a ← NdUmzr.stack9 u
      let b ← vmapTwo f a NdUmzr.pbounds
      NdUmzr.unstack9 b) = .ok p ∧
      ∀ k, (p k).shape = s ∧ ∀ idx, Pos s idx → (p k).dat idx = F ((u k).dat idx) (Umzr.MZR_PBDICT k) := by
  have hst : ∃ A, NdUmzr.stack9 u = .ok A ∧ A.shape = 9 :: s ∧ ∀ (k : Fin 9) idx, A.dat (k.1 :: idx) = (u k).dat idx := by
    refine ⟨_, if_pos (fun k => by rw [hu, hu]), by rw [hu], fun k idx => ?_⟩
    dsimp only
    rw [dif_pos k.2]
  obtain ⟨A, hA, hAs, hAd⟩ := hst
  have hrow : ∀ k : Fin 9, ∃ r, f (row A s k.1) (row NdUmzr.pbounds [2] k.1) = .ok r ∧ r.shape = s ∧
      ∀ idx, Pos s idx → r.dat idx = F ((u k).dat idx) (Umzr.MZR_PBDICT k) := by
    intro k
    obtain ⟨r, h1, h2, h3⟩ := hf (row A s k.1) k
    refine ⟨r, h1, h2, fun idx hi => ?_⟩
    rw [h3 idx hi]
    simp only [row, hAd]
  obtain ⟨r0, e0, s0, -⟩ := hrow 0
  have hv : ∃ B, vmapTwo f A NdUmzr.pbounds = .ok B ∧ B.shape = 9 :: s ∧
      ∀ (k : Fin 9) idx r, f (row A s k.1) (row NdUmzr.pbounds [2] k.1) = .ok r → B.dat (k.1 :: idx) = r.dat idx := by
    have e0' : f (row A s 0) (row NdUmzr.pbounds [2] 0) = .ok r0 := e0
    have hp : NdUmzr.pbounds.shape = [9, 2] := rfl
    unfold vmapTwo
    rw [hAs, hp]
    simp only [if_pos, e0']
    refine ⟨_, rfl, by rw [s0], fun k idx r hr => ?_⟩
    dsimp only
    rw [hr]
  obtain ⟨B, hB, hBs, hBd⟩ := hv
  have hun : NdUmzr.unstack9 B = .ok fun k => row B s k := by
    unfold NdUmzr.unstack9; rw [hBs]; rfl
  refine ⟨fun k => row B s k, by rw [hA]; simp only [bind, Except.bind]; rw [hB]; exact hun, fun k => ⟨rfl, fun idx hi => ?_⟩⟩
  obtain ⟨r, h1, -, h3⟩ := hrow k
  simp only [row]
  rw [hBd k idx r h1]
  exact h3 idx hi

theorem slope_hi_any {a b : Arr ℝ} {s : List ℕ} (ha : a.shape = s) (hb : b.shape = s) :
    (∃ r, NdElem.Umzr.get_mzr_t0_slope_hi_from_unbounded (.arr a) (.arr b) = .ok r ∧ r.shape = s ∧
      ∀ idx, Pos s idx → r.dat idx = Umzr.get_mzr_t0_slope_hi_from_unbounded (a.dat idx) (b.dat idx)) ∧
    (∃ r, NdElem.Umzr.get_u_mzr_t0_slope_hi_from_bounded (.arr a) (.arr b) = .ok r ∧ r.shape = s ∧
      ∀ idx, Pos s idx → r.dat idx = Umzr.get_u_mzr_t0_slope_hi_from_bounded (a.dat idx) (b.dat idx)) := by
  have hbr : Broadcasts ({a.shape} ∪ {b.shape}) s := broadcasts_scalars (by simp [ha]) (by intro t ht; simp [ha, hb] at ht; exact .inl ht)
  constructor
  · obtain ⟨r, hr, hs, hd⟩ := (elw_umzr_get_mzr_t0_slope_hi_from_unbounded (Elw.arr a) (Elw.arr b)).1 _ hbr
    refine ⟨r, hr, hs, fun idx hi => ?_⟩
    have := hd idx hi.length.ge
    rw [bcIdx_pos hi] at this
    simp only [this, Arr.bat, ha, hb, bcIdx_pos hi]
  · obtain ⟨r, hr, hs, hd⟩ := (elw_umzr_get_u_mzr_t0_slope_hi_from_bounded (Elw.arr a) (Elw.arr b)).1 _ hbr
    refine ⟨r, hr, hs, fun idx hi => ?_⟩
    have := hd idx hi.length.ge
    rw [bcIdx_pos hi] at this
    simp only [this, Arr.bat, ha, hb, bcIdx_pos hi]

/-- C132: nine unbounded parameters of one shape are transformed element by element: every population of the batch gets the bounded parameters of the scalar
transformation -/
theorem C132_bounded {u : Fin 9 → Arr ℝ} {s : List ℕ} (hu : ∀ k, (u k).shape = s) :
    ∃ p, NdUmzr.get_bounded_mzr_params u = .ok p ∧ ∀ k, (p k).shape = s ∧ ∀ idx, Pos s idx →
      (p k).dat idx = (Umzr.get_bounded_mzr_params (.ofArray fun k => (u k).dat idx)).toArray k := by
  obtain ⟨p, hp, hs⟩ := vmap_kernel hu bounded_kernel
  obtain ⟨r, hr, hrs, hrd⟩ := (slope_hi_any (hs 3).1 (hu 4)).1
  refine ⟨Function.update p 4 r, ?_, fun k => ?_⟩
  · unfold NdUmzr.get_bounded_mzr_params
    cases h1 : NdUmzr.stack9 u with
    | error e => rw [h1] at hp; cases hp
    | ok a =>
      rw [h1] at hp
      simp only [bind, Except.bind] at hp ⊢
      cases h2 : vmapTwo NdUmzr.get_square_bounded_param a NdUmzr.pbounds with
      | error e => rw [h2] at hp; cases hp
      | ok b =>
        rw [h2] at hp
        simp only at hp ⊢
        rw [hp]
        simp only
        rw [hr]
        rfl
  · by_cases hk : k = 4
    · subst hk
      simp only [Function.update_self]
      refine ⟨hrs, fun idx hi => ?_⟩
      rw [hrd idx hi, (hs 3).2 idx hi]
      rfl
    · rw [Function.update_of_ne hk]
      refine ⟨(hs k).1, fun idx hi => ?_⟩
      rw [(hs k).2 idx hi]
      fin_cases k <;> first | rfl | exact absurd rfl hk

/-- C132: and back -/
theorem C132_unbounded {p : Fin 9 → Arr ℝ} {s : List ℕ} (hp : ∀ k, (p k).shape = s) :
    ∃ u, NdUmzr.get_unbounded_mzr_params p = .ok u ∧ ∀ k, (u k).shape = s ∧ ∀ idx, Pos s idx →
      (u k).dat idx = (Umzr.get_unbounded_mzr_params (.ofArray fun k => (p k).dat idx)).toArray k := by
  obtain ⟨u, hu, hs⟩ := vmap_kernel hp unbounded_kernel
  obtain ⟨r, hr, hrs, hrd⟩ := (slope_hi_any (hp 3) (hp 4)).2
  refine ⟨Function.update u 4 r, ?_, fun k => ?_⟩
  · unfold NdUmzr.get_unbounded_mzr_params
    cases h1 : NdUmzr.stack9 p with
    | error e => rw [h1] at hu; cases hu
    | ok a =>
      rw [h1] at hu
      simp only [bind, Except.bind] at hu ⊢
      cases h2 : vmapTwo NdUmzr.get_square_unbounded_param a NdUmzr.pbounds with
      | error e => rw [h2] at hu; cases hu
      | ok b =>
        rw [h2] at hu
        simp only at hu ⊢
        rw [hu]
        simp only
        rw [hr]
        rfl
  · by_cases hk : k = 4
    · subst hk
      simp only [Function.update_self]
      refine ⟨hrs, fun idx hi => ?_⟩
      rw [hrd idx hi]
      rfl
    · rw [Function.update_of_ne hk]
      refine ⟨(hs k).1, fun idx hi => ?_⟩
      rw [(hs k).2 idx hi]
      fin_cases k <;> first | rfl | exact absurd rfl hk

/-- C132: parameters of different shapes raise, also when one is a single number and the others are a batch -/
theorem C132_mixed_raises {u : Fin 9 → Arr ℝ} {i j : Fin 9} (h : (u i).shape ≠ (u j).shape) :
    Raises (NdUmzr.get_bounded_mzr_params u) ∧ Raises (NdUmzr.get_unbounded_mzr_params u) := by
  have : NdUmzr.stack9 u = .error .valueError := by
    rw [NdUmzr.stack9, if_neg]
    intro hall
    exact h ((hall i).trans (hall j).symm)
  constructor
  · exact ⟨.valueError, by simp [NdUmzr.get_bounded_mzr_params, this, bind, Except.bind]⟩
  · exact ⟨.valueError, by simp [NdUmzr.get_unbounded_mzr_params, this, bind, Except.bind]⟩

/-- a batch of five populations at the default parameters -/
example : ∃ p, NdUmzr.get_unbounded_mzr_params (fun k => ⟨[5], fun _ => Umzr.DEFAULT_MZR_PARAMS.toArray k⟩) = .ok p ∧
    ∀ k, (p k).shape = [5] ∧ ∀ i < 5, (p k).dat [i] = Umzr.DEFAULT_MZR_U_PARAMS.toArray k := by
  obtain ⟨p, h, hp⟩ := C132_unbounded (s := [5]) (p := fun k => ⟨[5], fun _ => Umzr.DEFAULT_MZR_PARAMS.toArray k⟩) (fun _ => rfl)
  refine ⟨p, h, fun k => ⟨(hp k).1, fun i hi => ?_⟩⟩
  rw [(hp k).2 [i] (by simpa [Pos] using hi)]
  rfl

end Dsps.Props
