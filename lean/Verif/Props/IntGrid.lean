import Verif.Model.IntGrid
import Verif.Props.SspWeights
import Verif.Cases

/-! C127: grids given as integers. -/
namespace Dsps.Props
open Jnp Dsps.Lemmas Dsps.IntGrid Spec

variable {n k m : ℕ}

/-- Specification: whole numbers as the float array with the same entries. -/
def asFloat (v : Fin n → ℤ) : Grid n := .flt fun i => (v i : ℝ)

theorem trunc_zero : trunc 0 = 0 := by simp [trunc]

theorem trunc_int (z : ℤ) : trunc (z : ℝ) = z := by unfold trunc; split_ifs <;> simp

theorem trunc_nonneg {x : ℝ} (h : 0 ≤ x) : trunc x = ⌊x⌋ := by unfold trunc; rw [if_pos h]

theorem update_trunc (a : Fin n → ℝ) (i : Fin n) (x : ℝ) :
    Jnp.setAt (fun j => trunc (a j)) i (trunc x) = fun j => trunc (Jnp.setAt a i x j) := by
  funext j
  unfold Jnp.setAt
  by_cases h : j = i
  · subst h; simp
  · rw [Function.update_of_ne h, Function.update_of_ne h]

theorem setInterior_trunc (a : Fin (n + 2) → ℝ) (x : Fin n → ℝ) :
    Jnp.setInterior (fun j => trunc (a j)) (fun j => trunc (x j)) = fun j => trunc (Jnp.setInterior a x j) := by
  funext j
  unfold Jnp.setInterior Jnp.setTail Jnp.setInit Jnp.tail
  refine Fin.cases ?_ (fun j => ?_) j
  · simp
  · refine Fin.lastCases ?_ (fun j => ?_) j
    · simp
    · simp

/-- the cell widths of an integer grid are the truncated cell widths -/
theorem dt_int (v : Fin (n + 3) → ℤ) :
    IntGrid.jax_get_dt_array (.int v) = .int fun i => trunc (Utils.jax_get_dt_array (fun i => (v i : ℝ)) i) := by
  unfold IntGrid.jax_get_dt_array Utils.jax_get_dt_array
  simp only [zeros_like, IntGrid.setInterior, IntGrid.setAt, Grid.val]
  rw [show (fun _ => (0:ℤ) : Fin (n + 3) → ℤ) = fun j => trunc (zeros (n + 3) j) by funext j; simp [zeros, trunc_zero],
    setInterior_trunc, update_trunc, update_trunc]

/-- C127: on a float grid nothing changes (so the theorems about the other model apply). -/
theorem C127_float_grid [Dtype] (t : Fin (n + 3) → ℝ) (lo hi : ℝ) :
    IntGrid.jax_get_dt_array (.flt t) = .flt (Utils.jax_get_dt_array t) ∧
    IntGrid.get_bin_edges (.flt t) lo hi = Utils.get_bin_edges t lo hi ∧
    IntGrid.get_lg_age_bin_edges (.flt t) = StellarAgeWeights.get_lg_age_bin_edges t ∧
    (∀ x s, IntGrid.calc_lgmet_weights_from_lognormal_mdf x s (.flt t) =
      MetallicityWeights.calc_lgmet_weights_from_lognormal_mdf x s t) ∧
    (∀ (a b : Fin (m + 2) → ℝ) (t_obs sfr_min : ℝ), IntGrid.calc_age_weights_from_sfh_table (.flt a) (.flt b) (.flt t) t_obs sfr_min =
      StellarAgeWeights.calc_age_weights_from_sfh_table a b t t_obs sfr_min) :=
  ⟨rfl, rfl, rfl, fun _ _ => rfl, fun _ _ _ _ => rfl⟩

/-- C127: **the widths of an increasing integer grid are rounded down** to whole numbers: at least one, never above the true
width, and less than one below it. -/
theorem C127_int_widths (v : Fin (n + 3) → ℤ) (hv : StrictMono v) (i : Fin (n + 3)) :
    let true_width := Utils.jax_get_dt_array (fun i => (v i : ℝ)) i
    let width := (IntGrid.jax_get_dt_array (.int v)).val i
    width = (⌊true_width⌋ : ℝ) ∧ 1 ≤ width ∧ width ≤ true_width ∧ true_width < width + 1 := by
  intro true_width width
  have hstep : ∀ j : Fin (n + 2), (v j.castSucc : ℝ) + 1 ≤ v j.succ := fun j => by
    exact_mod_cast hv (Fin.castSucc_lt_succ (i := j))
  have h1 : 1 ≤ true_width := by
    rcases fin_cases3 i with h | ⟨j, h⟩ | h
    · have := hstep 0
      simp only [true_width, h, dt_zero]
      simp at this; linarith
    · have a := hstep j.castSucc
      have b := hstep j.succ
      simp only [true_width, h, dt_interior]
      rw [← Fin.succ_castSucc] at b
      linarith
    · have a := hstep (Fin.last n).castSucc
      have b := hstep (Fin.last (n + 1))
      simp only [true_width, h, dt_last]
      rw [Fin.succ_castSucc, Fin.succ_last] at a
      rw [Fin.succ_last] at b
      linarith
  have hw : width = (⌊true_width⌋ : ℝ) := by
    simp only [width, dt_int, Grid.val]
    rw [trunc_nonneg (by linarith)]
  refine ⟨hw, ?_, ?_, ?_⟩
  · rw [hw]; exact_mod_cast Int.le_floor.2 (by exact_mod_cast h1)
  · rw [hw]; exact Int.floor_le _
  · rw [hw]; exact Int.lt_floor_add_one _

/-- C127: the widths are the true ones exactly when every point has neighbours an even distance apart and the last three points
satisfy the corresponding condition modulo four. -/
theorem C127_int_exact_iff (v : Fin (n + 3) → ℤ) :
    ((IntGrid.jax_get_dt_array (.int v)).val = Utils.jax_get_dt_array (fun i => (v i : ℝ))) ↔
      (∀ j : Fin (n + 1), 2 ∣ v j.succ.succ - v j.castSucc.castSucc) ∧
      4 ∣ 2 * (v (Fin.last (n + 2)) - v (Fin.last (n + 1)).castSucc) + (v (Fin.last (n + 2)) - v (Fin.last n).castSucc.castSucc) := by
  have hint : ∀ x : ℝ, ((trunc x : ℤ) : ℝ) = x ↔ ∃ z : ℤ, x = z := fun x =>
    ⟨fun h => ⟨trunc x, h.symm⟩, by rintro ⟨z, rfl⟩; rw [trunc_int]⟩
  rw [dt_int]
  constructor
  · intro h
    have hi : ∀ i, ∃ z : ℤ, Utils.jax_get_dt_array (fun i => (v i : ℝ)) i = z := fun i => (hint _).1 (congrFun h i)
    constructor
    · intro j
      obtain ⟨z, hz⟩ := hi j.castSucc.succ
      rw [dt_interior] at hz
      refine ⟨z, ?_⟩
      have : ((v j.succ.succ - v j.castSucc.castSucc : ℤ) : ℝ) = ((2 * z : ℤ) : ℝ) := by push_cast; linarith
      exact_mod_cast this
    · obtain ⟨z, hz⟩ := hi (Fin.last (n + 2))
      rw [dt_last] at hz
      refine ⟨z, ?_⟩
      have : ((2 * (v (Fin.last (n + 2)) - v (Fin.last (n + 1)).castSucc) +
          (v (Fin.last (n + 2)) - v (Fin.last n).castSucc.castSucc) : ℤ) : ℝ) = ((4 * z : ℤ) : ℝ) := by push_cast; linarith
      exact_mod_cast this
  · rintro ⟨h2, z, hz⟩
    funext i
    refine (hint _).2 ?_
    rcases fin_cases3 i with h | ⟨j, h⟩ | h
    · subst h; exact ⟨v 1 - v 0, by rw [dt_zero]; push_cast; ring⟩
    · subst h
      obtain ⟨y, hy⟩ := h2 j
      refine ⟨y, ?_⟩
      rw [dt_interior]
      have : ((v j.succ.succ - v j.castSucc.castSucc : ℤ) : ℝ) = ((2 * y : ℤ) : ℝ) := by rw [hy]
      push_cast at this; linarith
    · subst h
      refine ⟨z, ?_⟩
      rw [dt_last]
      have : ((2 * (v (Fin.last (n + 2)) - v (Fin.last (n + 1)).castSucc) +
          (v (Fin.last (n + 2)) - v (Fin.last n).castSucc.castSucc) : ℤ) : ℝ) = ((4 * z : ℤ) : ℝ) := by rw [hz]
      push_cast at this; linarith

/-- when the widths are the true ones, everything computed from an integer grid is what the float grid gives -/
theorem same_of_exact (v : Fin (n + 3) → ℤ)
    (h : (IntGrid.jax_get_dt_array (.int v)).val = Utils.jax_get_dt_array (fun i => (v i : ℝ))) :
    (∀ lo hi, IntGrid.get_bin_edges (.int v) lo hi = IntGrid.get_bin_edges (asFloat v) lo hi) ∧
    IntGrid.get_lg_age_bin_edges (.int v) = IntGrid.get_lg_age_bin_edges (asFloat v) := by
  have hf : (IntGrid.jax_get_dt_array (asFloat v)).val = Utils.jax_get_dt_array (fun i => (v i : ℝ)) := rfl
  constructor
  · intro lo hi
    simp only [IntGrid.get_bin_edges, h, hf]
    rfl
  · simp only [IntGrid.get_lg_age_bin_edges, h, hf]
    rfl

/-- C127: **evenly spaced integer grids are safe** (`np.arange`): widths, edges, metallicity weights and age weights are those of the
float grid. -/
theorem C127_arange_safe [Dtype] (a c : ℤ) :
    let v : Fin (n + 3) → ℤ := fun i => a + (i : ℕ) * c
    (∀ i, (IntGrid.jax_get_dt_array (.int v)).val i = c) ∧
    (∀ lo hi, IntGrid.get_bin_edges (.int v) lo hi = IntGrid.get_bin_edges (asFloat v) lo hi) ∧
    (∀ x s, IntGrid.calc_lgmet_weights_from_lognormal_mdf x s (.int v) =
      IntGrid.calc_lgmet_weights_from_lognormal_mdf x s (asFloat v)) ∧
    (∀ (t s : Grid (m + 2)) (t_obs sfr_min : ℝ), IntGrid.calc_age_weights_from_sfh_table t s (.int v) t_obs sfr_min =
      IntGrid.calc_age_weights_from_sfh_table t s (asFloat v) t_obs sfr_min) := by
  intro v
  have hu : ∀ i, Utils.jax_get_dt_array (fun i => (v i : ℝ)) i = c := by
    intro i
    have := C06_uniform (n := n) (a : ℝ) (c : ℝ) i
    rw [← this]
    congr 1
    funext j
    simp only [v]; push_cast; ring
  have hw : ∀ i, (IntGrid.jax_get_dt_array (.int v)).val i = c := by
    intro i
    rw [dt_int]
    simp only [Grid.val, hu, trunc_int]
  have he := same_of_exact v (by funext i; rw [hw, hu])
  refine ⟨hw, he.1, ?_, ?_⟩
  · intro x s; unfold IntGrid.calc_lgmet_weights_from_lognormal_mdf; rw [he.1]
  · intro t s t_obs sfr_min; unfold IntGrid.calc_age_weights_from_sfh_table; rw [he.2]

/-- C127: tables of times and of star formation rates may always be integers: the mass formed and the age weights are those of
the float tables. -/
theorem C127_tables_safe [Dtype] (t s : Fin (n + 2) → ℤ) (a : Grid (m + 3)) (t_obs sfr_min : ℝ) :
    IntGrid.cumulative_mstar_formed (.int t) (.int s) = Utils.cumulative_mstar_formed (fun i => (t i : ℝ)) (fun i => (s i : ℝ)) ∧
    IntGrid.calc_age_weights_from_sfh_table (.int t) (.int s) a t_obs sfr_min =
      IntGrid.calc_age_weights_from_sfh_table (asFloat t) (asFloat s) a t_obs sfr_min := ⟨rfl, rfl⟩

theorem int_edge (v : Fin (n + 3) → ℤ) (lo hi : ℝ) (i : Fin (n + 2)) :
    IntGrid.get_bin_edges (.int v) lo hi i.succ.castSucc = v i.succ - (IntGrid.jax_get_dt_array (.int v)).val i.succ / 2 := by
  simp only [IntGrid.get_bin_edges, Jnp.setAt]
  rw [Function.update_of_ne (Fin.castSucc_lt_last _).ne, Function.update_of_ne (by
    rw [← Fin.succ_castSucc]; exact Fin.succ_ne_zero _), setInit_castSucc]
  rfl

/-- C127: **bins of an increasing integer grid**: each interior edge lies below its bin's grid point and less than half a unit
above the edge of the float grid. -/
theorem C127_int_edges (v : Fin (n + 3) → ℤ) (hv : StrictMono v) (lo hi : ℝ) (i : Fin (n + 2)) :
    let e := IntGrid.get_bin_edges (.int v) lo hi i.succ.castSucc
    let e' := Utils.get_bin_edges (fun i => (v i : ℝ)) lo hi i.succ.castSucc
    e' ≤ e ∧ e < e' + 1 / 2 ∧ e < v i.succ := by
  intro e e'
  have he : e = v i.succ - (IntGrid.jax_get_dt_array (.int v)).val i.succ / 2 := int_edge v lo hi i
  have he' : e' = v i.succ - Utils.jax_get_dt_array (fun i => (v i : ℝ)) i.succ / 2 := edges_succ _ lo hi i
  obtain ⟨-, h1, h2, h3⟩ := C127_int_widths v hv i.succ
  rw [he, he']
  refine ⟨by linarith, by linarith, by linarith⟩

theorem caseInt_strictMono : StrictMono (![-3, -1, 0] : Fin 3 → ℤ) := by
  rw [Fin.strictMono_iff_lt_succ]; intro i; fin_cases i <;> decide

theorem caseInt_edges : Utils.get_bin_edges (fun i => ((![-3, -1, 0] : Fin 3 → ℤ) i : ℝ)) (-10) 10 1 = -1.75 ∧
    Utils.get_bin_edges (fun i => ((![-3, -1, 0] : Fin 3 → ℤ) i : ℝ)) (-10) 10 2 = -0.625 ∧
    IntGrid.get_bin_edges (.int ![-3, -1, 0]) (-10) 10 1 = -1.5 ∧ IntGrid.get_bin_edges (.int ![-3, -1, 0]) (-10) 10 2 = -0.5 := by
  have w1 : Utils.jax_get_dt_array (fun i => ((![-3, -1, 0] : Fin 3 → ℤ) i : ℝ)) 1 = 1.5 := by
    refine (dt_interior (n := 0) _ 0).trans ?_
    simp; norm_num
  have w2 : Utils.jax_get_dt_array (fun i => ((![-3, -1, 0] : Fin 3 → ℤ) i : ℝ)) 2 = 1.25 := by
    refine (dt_last (n := 0) _).trans ?_
    simp [Fin.last]; norm_num
  have i1 : trunc 1.5 = 1 := by rw [trunc_nonneg (by norm_num)]; norm_num
  have i2 : trunc 1.25 = 1 := by rw [trunc_nonneg (by norm_num)]; norm_num
  have e1 : IntGrid.get_bin_edges (.int ![-3, -1, 0]) (-10) 10 1 = -1 - (IntGrid.jax_get_dt_array (.int ![-3, -1, 0])).val 1 / 2 := by
    exact int_edge (![-3, -1, 0]) (-10) 10 0 |>.trans (by norm_num)
  have e2 : IntGrid.get_bin_edges (.int ![-3, -1, 0]) (-10) 10 2 = 0 - (IntGrid.jax_get_dt_array (.int ![-3, -1, 0])).val 2 / 2 := by
    exact int_edge (![-3, -1, 0]) (-10) 10 1 |>.trans (by simp)
  refine ⟨?_, ?_, ?_, ?_⟩
  · refine (edges_succ (n := 0) _ (-10) 10 0).trans ?_
    simp only [Fin.succ_zero_eq_one, w1]; norm_num
  · refine (edges_succ (n := 0) _ (-10) 10 1).trans ?_
    simp only [show Fin.succ (1 : Fin 2) = 2 from rfl, w2]; simp; norm_num
  · rw [e1, dt_int]; simp only [Grid.val, w1, i1]; norm_num
  · rw [e2, dt_int]; simp only [Grid.val, w2, i2]; norm_num

theorem weights_of_edges {e : Fin 4 → ℝ} {x s : ℝ} (hs : 0 < s) (h0 : e 0 ≤ x - 3 * s) (h3 : x + 3 * s ≤ e 3) (i : Fin 3) :
    MetallicityWeights.get_lgmet_weights_singlegal x s e i =
      Utils.tw_cuml_kern (e i.succ) x s - Utils.tw_cuml_kern (e i.castSucc) x s := by
  have htot : ∫ u in (e 0)..(e (Fin.last 3)), Utils.triweight_gaussian u x s = 1 := C02_triweight_integral_one x s _ _ hs h0 h3
  rw [lgmet_singlegal_eq, C04_triweights_overlap x s hs e (by rw [htot]; norm_num) i, htot, div_one,
    integral_triweight_gaussian _ _ _ _ hs.ne']

/-- **Negation of "integers or floats make no difference".**  For the metallicity grid -3, -1, 0 and a galaxy at log10(Z) = -1.6 with
scatter 0.01, the float grid puts all of the stars in the bin of -1, the integer grid all of them in the bin of -3. -/
theorem C127_int_grid_differs :
    IntGrid.calc_lgmet_weights_from_lognormal_mdf (-1.6) 0.01 (asFloat ![-3, -1, 0]) = ![0, 1, 0] ∧
    IntGrid.calc_lgmet_weights_from_lognormal_mdf (-1.6) 0.01 (.int ![-3, -1, 0]) = ![1, 0, 0] := by
  obtain ⟨f1, f2, i1, i2⟩ := caseInt_edges
  have c1 : Constants.LGMET_LO = -10 := by norm_num [Constants.LGMET_LO]
  have c2 : Constants.LGMET_HI = 10 := by norm_num [Constants.LGMET_HI]
  have hs : (0:ℝ) < 0.01 := by norm_num
  have K0 : ∀ u : ℝ, u ≤ -1.63 → Utils.tw_cuml_kern u (-1.6) 0.01 = 0 := fun u hu =>
    (C01_triweight_cdf (-1.6) 0.01 hs).2.2.1 u (by linarith)
  have K1 : ∀ u : ℝ, -1.57 ≤ u → Utils.tw_cuml_kern u (-1.6) 0.01 = 1 := fun u hu =>
    (C01_triweight_cdf (-1.6) 0.01 hs).2.2.2.1 u (by linarith)
  have z0 : ∀ g : Grid 3, IntGrid.get_bin_edges g (-10) 10 0 = -10 := by
    intro g
    simp only [IntGrid.get_bin_edges, Jnp.setAt]
    rw [Function.update_of_ne zero_ne_last, Function.update_self]
  have z3 : ∀ g : Grid 3, IntGrid.get_bin_edges g (-10) 10 3 = 10 := by
    intro g
    simp only [IntGrid.get_bin_edges, Jnp.setAt]
    exact Function.update_self ..
  have f1' : IntGrid.get_bin_edges (asFloat ![-3, -1, 0]) (-10) 10 1 = -1.75 := f1
  have f2' : IntGrid.get_bin_edges (asFloat ![-3, -1, 0]) (-10) 10 2 = -0.625 := f2
  constructor
  · funext i
    simp only [IntGrid.calc_lgmet_weights_from_lognormal_mdf, c1, c2]
    rw [weights_of_edges hs (by rw [z0]; norm_num) (by rw [z3]; norm_num)]
    fin_cases i
    · show Utils.tw_cuml_kern (IntGrid.get_bin_edges _ (-10) 10 1) _ _ - Utils.tw_cuml_kern (IntGrid.get_bin_edges _ (-10) 10 0) _ _ = 0
      rw [f1', z0, K0 _ (by norm_num), K0 _ (by norm_num)]; norm_num
    · show Utils.tw_cuml_kern (IntGrid.get_bin_edges _ (-10) 10 2) _ _ - Utils.tw_cuml_kern (IntGrid.get_bin_edges _ (-10) 10 1) _ _ = 1
      rw [f1', f2', K1 _ (by norm_num), K0 _ (by norm_num)]; norm_num
    · show Utils.tw_cuml_kern (IntGrid.get_bin_edges _ (-10) 10 3) _ _ - Utils.tw_cuml_kern (IntGrid.get_bin_edges _ (-10) 10 2) _ _ = 0
      rw [z3, f2', K1 _ (by norm_num), K1 _ (by norm_num)]; norm_num
  · funext i
    simp only [IntGrid.calc_lgmet_weights_from_lognormal_mdf, c1, c2]
    rw [weights_of_edges hs (by rw [z0]; norm_num) (by rw [z3]; norm_num)]
    fin_cases i
    · show Utils.tw_cuml_kern (IntGrid.get_bin_edges _ (-10) 10 1) _ _ - Utils.tw_cuml_kern (IntGrid.get_bin_edges _ (-10) 10 0) _ _ = 1
      rw [i1, z0, K1 _ (by norm_num), K0 _ (by norm_num)]; norm_num
    · show Utils.tw_cuml_kern (IntGrid.get_bin_edges _ (-10) 10 2) _ _ - Utils.tw_cuml_kern (IntGrid.get_bin_edges _ (-10) 10 1) _ _ = 0
      rw [i1, i2, K1 _ (by norm_num), K1 _ (by norm_num)]; norm_num
    · show Utils.tw_cuml_kern (IntGrid.get_bin_edges _ (-10) 10 3) _ _ - Utils.tw_cuml_kern (IntGrid.get_bin_edges _ (-10) 10 2) _ _ = 0
      rw [z3, i2, K1 _ (by norm_num), K1 _ (by norm_num)]; norm_num

/-- case: the grid of the negation theorem -/
example (i : Fin 3) := C127_int_widths (n := 0) ![-3, -1, 0] caseInt_strictMono i
example (i : Fin 2) := C127_int_edges (n := 0) ![-3, -1, 0] caseInt_strictMono (-10) 10 i
/-- a safe, unevenly spaced grid -/
example : (IntGrid.jax_get_dt_array (.int ![-4, -2, 0, 4, 4])).val = Utils.jax_get_dt_array (fun i => ((![-4, -2, 0, 4, 4] : Fin 5 → ℤ) i : ℝ)) :=
  (C127_int_exact_iff (n := 2) ![-4, -2, 0, 4, 4]).2 ⟨by decide, by decide⟩

end Dsps.Props
