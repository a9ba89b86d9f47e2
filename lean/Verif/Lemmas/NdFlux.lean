import Verif.Lemmas.NdSed

/-! `ssp_flux` of any shape in the SED functions. -/
namespace Dsps.NdSed
open Nd Py Dsps.Constants

variable [Jnp.Dtype] [Edge] {n m k w : ℕ}

/-- Which shapes of `ssp_flux` fit a grid of `n_met` metallicities and `n_ages` ages: counted from the end, the second
dimension (if there is one) is `n_ages` or 1 and the third (if there is one) is `n_met` or 1. -/
def FluxFits (n_met n_ages : ℕ) (s : List ℕ) : Prop :=
  (∀ d, s.reverse[1]? = some d → d = n_ages ∨ d = 1) ∧ (∀ d, s.reverse[2]? = some d → d = n_met ∨ d = 1)

theorem FluxFits.three {pre : List ℕ} {a b c : ℕ} :
    FluxFits k m (pre ++ [a, b, c]) ↔ (b = m ∨ b = 1) ∧ (a = k ∨ a = 1) := by
  simp [FluxFits, List.reverse_append]

theorem FluxFits.two {b c : ℕ} : FluxFits k m [b, c] ↔ (b = m ∨ b = 1) := by simp [FluxFits]
theorem FluxFits.one {c : ℕ} : FluxFits k m [c] := by simp [FluxFits]
theorem FluxFits.zero : FluxFits k m [] := by simp [FluxFits]

/-- every shape has at most two dimensions or ends with three -/
theorem shape_cases (s : List ℕ) :
    s = [] ∨ (∃ c, s = [c]) ∨ (∃ b c, s = [b, c]) ∨ ∃ pre a b c, s = pre ++ [a, b, c] := by
  obtain ⟨r, rfl⟩ : ∃ r : List ℕ, s = r.reverse := ⟨s.reverse, by simp⟩
  match r with
  | [] => simp
  | [c] => simp
  | [c, b] => exact Or.inr (Or.inr (Or.inl ⟨b, c, by simp⟩))
  | c :: b :: a :: pre => exact Or.inr (Or.inr (Or.inr ⟨pre.reverse, a, b, c, by simp⟩))

theorem bc_dim {x y : ℕ} (hy : y ≠ 1) (a b : List ℕ) (h : x = y ∨ x = 1) :
    bcRev (x :: a) (y :: b) = (bcRev a b).map (y :: ·) := by
  rcases h with rfl | rfl
  · simp [bcRev]
  · simp [bcRev, hy, Ne.symm hy]

theorem bc_dim_raises {x y : ℕ} (hy : y ≠ 1) (a b : List ℕ) (h : ¬ (x = y ∨ x = 1)) :
    bcRev (x :: a) (y :: b) = .error .typeError := by
  push Not at h
  simp [bcRev, hy, h.1, h.2]

theorem bc_flux_three (hk : k ≠ 1) (hm : m ≠ 1) {pre : List ℕ} {a b c : ℕ} (hb : b = m ∨ b = 1) (ha : a = k ∨ a = 1) :
    bcShape (pre ++ [a, b, c]) [k, m, 1] = .ok (pre ++ [k, m, c]) := by
  simp only [bcShape, List.reverse_append, List.reverse_cons, List.reverse_nil, List.nil_append, List.cons_append]
  rw [bcRev, if_pos (Or.inr rfl), bc_dim hm _ _ hb, bc_dim hk _ _ ha, bcRev_nil]
  simp [Except.map]

theorem bc_flux_two (hm : m ≠ 1) {b c : ℕ} (hb : b = m ∨ b = 1) :
    bcShape [b, c] [k, m, 1] = .ok [k, m, c] := by
  simp only [bcShape, List.reverse_cons, List.reverse_nil, List.nil_append, List.cons_append]
  rw [bcRev, if_pos (Or.inr rfl), bc_dim hm _ _ hb]
  simp [bcRev, Except.map]

theorem bc_flux_one {c : ℕ} : bcShape [c] [k, m, 1] = .ok [k, m, c] := by
  simp [bcShape, bcRev, Except.map]

theorem bc_flux_raises (hk : k ≠ 1) (hm : m ≠ 1) {s : List ℕ} (h : ¬ FluxFits k m s) :
    Raises (bcShape s [k, m, 1]) := by
  refine ⟨.typeError, ?_⟩
  rcases shape_cases s with rfl | ⟨c, rfl⟩ | ⟨b, c, rfl⟩ | ⟨pre, a, b, c, rfl⟩
  · exact absurd FluxFits.zero h
  · exact absurd FluxFits.one h
  · rw [FluxFits.two] at h
    simp only [bcShape, List.reverse_cons, List.reverse_nil, List.nil_append, List.cons_append]
    rw [bcRev, if_pos (Or.inr rfl), bc_dim_raises hm _ _ h]
    rfl
  · rw [FluxFits.three] at h
    simp only [bcShape, List.reverse_append, List.reverse_cons, List.reverse_nil, List.nil_append, List.cons_append]
    rw [bcRev, if_pos (Or.inr rfl)]
    by_cases hb : b = m ∨ b = 1
    · rw [bc_dim hm _ _ hb, bc_dim_raises hk _ _ (fun ha => h ⟨hb, ha⟩)]
      rfl
    · rw [bc_dim_raises hm _ _ hb]
      rfl

/-- flux table read at a full index -/
noncomputable def readFlux (flux : Arr ℝ) (i j l : ℕ) : ℝ := flux.dat (bcIdx flux.shape [i, j, l])

/-- the sum over metallicity and age computed by the SED functions, for a flux table of at most three dimensions -/
theorem sed_core_le_three {flux W3 : Arr ℝ} {v : Fin k → Fin m → ℝ} {c : ℕ}
    (hW : Is3 W3 fun i j (_ : Fin 1) => v i j) (hs : bcShape flux.shape [k, m, 1] = .ok [k, m, c]) :
    Ok (do sum01 (← map2 (· * ·) flux W3))
      (Is1 · fun l : Fin c => SspWeights.sum2 fun i j => readFlux flux i j l * v i j) := by
  refine Ok.bind ⟨_, by rw [map2, hW.1, hs], rfl⟩ fun p hp => ?_
  subst hp
  refine ⟨_, rfl, rfl, fun l => ?_⟩
  simp only [sum_range_fin, SspWeights.sum2, Jnp.sum, readFlux]
  refine Finset.sum_congr rfl fun i _ => Finset.sum_congr rfl fun j _ => ?_
  have e : bcIdx [k, m, 1] [i.1, j.1, l.1] = [i.1, j.1, ((0 : Fin 1) : ℕ)] := by
    simp [bcIdx]; constructor <;> omega
  rw [e, hW.2]

/-- the same for a flux table with further leading dimensions -/
theorem sed_core_more {flux W3 : Arr ℝ} {v : Fin k → Fin m → ℝ} {q c : ℕ} (hk : k ≠ 1) (hm : m ≠ 1)
    (hW : Is3 W3 fun i j (_ : Fin 1) => v i j) (hs : flux.shape = [q, k, m, c]) :
    Ok (do sum01 (← map2 (· * ·) flux W3))
      (Is2 · fun (j : Fin m) (l : Fin c) => ∑ p : Fin q, ∑ i : Fin k, flux.dat [p, i, j, l] * v i j) := by
  have hb : bcShape flux.shape [k, m, 1] = .ok [q, k, m, c] := by
    rw [hs]; exact bc_flux_three (pre := [q]) hk hm (Or.inl rfl) (Or.inl rfl)
  refine Ok.bind ⟨_, by rw [map2, hW.1, hb], rfl⟩ fun p hp => ?_
  subst hp
  refine ⟨_, rfl, rfl, fun j l => ?_⟩
  simp only [sum_range_fin]
  refine Finset.sum_congr rfl fun p _ => Finset.sum_congr rfl fun i _ => ?_
  have e : bcIdx [k, m, 1] [p.1, i.1, j.1, l.1] = [i.1, j.1, ((0 : Fin 1) : ℕ)] := by
    simp [bcIdx]; constructor <;> omega
  rw [e, hW.2, hs, bcIdx_self (by simp)]

theorem sed_weights_prefix {W : SSPWeights} {v : Fin k → Fin m → ℝ} (hW : Is2 W.weights v)
    (t s flux tob c : Arr ℝ) :
    ∃ W3, Is3 W3 (fun i j (_ : Fin 1) => v i j) ∧ sed_from_weights W t s flux tob c = (do
      let sed_unit_mstar ← (do sum01 (← map2 (· * ·) flux W3))
      let logsm_table ← calc_logsm_table_from_sfh_table t s c
      let logsm_obs ← interp (map Jnp.log10 tob) (map Jnp.log10 t) logsm_table
      let rest_sed ← map2 (· * ·) sed_unit_mstar (map Jnp.exp10 logsm_obs)
      return ⟨rest_sed, W.weights, W.lgmet_weights, W.age_weights⟩) := by
  obtain ⟨W3, e, h⟩ := reshape_cube hW
  refine ⟨W3, h, ?_⟩
  simp only [sed_from_weights]
  rw [hW.1]
  simp only [bind, Except.bind, e, pure, Except.pure]
  cases map2 (fun x1 x2 : ℝ => x1 * x2) flux W3 <;> rfl

theorem sed_le_three_ok {W : SSPWeights} {v : Fin k → Fin m → ℝ} {t s flux tob c : Arr ℝ} {a b : Fin (n + 2) → ℝ}
    {x y : ℝ} {d : ℕ} (hW : Is2 W.weights v) (ht : Is1 t a) (hs : Is1 s b) (hto : Is0 tob x) (hc : Is0 c y)
    (hf : bcShape flux.shape [k, m, 1] = .ok [k, m, d]) :
    Ok (sed_from_weights W t s flux tob c) fun R =>
      Is1 R.rest_sed (fun l : Fin d => (SspWeights.sum2 fun i j => readFlux flux i j l * v i j) *
        SspWeights.mstar_obs a b x y) ∧
      R.weights = W.weights ∧ R.lgmet_weights = W.lgmet_weights ∧ R.age_weights = W.age_weights := by
  obtain ⟨W3, h3, e⟩ := sed_weights_prefix hW t s flux tob c
  rw [e]
  refine (sed_core_le_three h3 hf).bind fun u hu => ?_
  refine (logsm_ok ht hs hc).bind fun l hl => ?_
  refine (interp_0 (hto.map _) (ht.map _) hl).bind fun q0 hq0 => ?_
  have hq : Is0 (map Jnp.exp10 q0) (SspWeights.mstar_obs a b x y) := hq0.map _
  refine (map2_10 hu hq).bind fun r hr => ?_
  exact .pure ⟨hr, rfl, rfl, rfl⟩

theorem sed_more_ok {W : SSPWeights} {v : Fin k → Fin m → ℝ} {t s flux tob c : Arr ℝ} {a b : Fin (n + 2) → ℝ}
    {x y : ℝ} {q d : ℕ} (hk : k ≠ 1) (hm : m ≠ 1) (hW : Is2 W.weights v) (ht : Is1 t a) (hs : Is1 s b) (hto : Is0 tob x)
    (hc : Is0 c y) (hf : flux.shape = [q, k, m, d]) :
    Ok (sed_from_weights W t s flux tob c) fun R =>
      Is2 R.rest_sed (fun (j : Fin m) (l : Fin d) =>
        (∑ p : Fin q, ∑ i : Fin k, flux.dat [p, i, j, l] * v i j) * SspWeights.mstar_obs a b x y) := by
  obtain ⟨W3, h3, e⟩ := sed_weights_prefix hW t s flux tob c
  rw [e]
  refine (sed_core_more hk hm h3 hf).bind fun u hu => ?_
  refine (logsm_ok ht hs hc).bind fun l hl => ?_
  refine (interp_0 (hto.map _) (ht.map _) hl).bind fun q0 hq0 => ?_
  have hq : Is0 (map Jnp.exp10 q0) (SspWeights.mstar_obs a b x y) := hq0.map _
  refine (map2_20 hu hq).bind fun r hr => ?_
  exact .pure hr

theorem sed_raises {W : SSPWeights} {v : Fin k → Fin m → ℝ} {t s flux tob c : Arr ℝ} (hk : k ≠ 1) (hm : m ≠ 1)
    (hW : Is2 W.weights v) (hf : ¬ FluxFits k m flux.shape) : Raises (sed_from_weights W t s flux tob c) := by
  obtain ⟨W3, h3, e⟩ := sed_weights_prefix hW t s flux tob c
  rw [e]
  refine Raises.bind (Raises.bind (map2_raises ?_))
  rw [h3.1]
  exact bc_flux_raises hk hm hf

/-- a flux table of any fitting shape is accepted -/
theorem sed_fits_ok {W : SSPWeights} {v : Fin k → Fin m → ℝ} {t s flux tob c : Arr ℝ} {a b : Fin (n + 2) → ℝ}
    {x y : ℝ} (hk : k ≠ 1) (hm : m ≠ 1) (hW : Is2 W.weights v) (ht : Is1 t a) (hs : Is1 s b) (hto : Is0 tob x)
    (hc : Is0 c y) (hf : FluxFits k m flux.shape) :
    Ok (sed_from_weights W t s flux tob c) fun R => R.rest_sed.shape =
      (if flux.shape.length ≤ 3 then [flux.shape.getLastD 1]
       else ((flux.shape.take (flux.shape.length - 3)) ++ [k, m, flux.shape.getLastD 1]).drop 2) := by
  obtain ⟨W3, h3, e⟩ := sed_weights_prefix hW t s flux tob c
  obtain ⟨S, hS, hS'⟩ : ∃ S, bcShape flux.shape [k, m, 1] = .ok (S : List ℕ) ∧
      ∃ d1 d2 S', S = d1 :: d2 :: S' ∧ S' = (if flux.shape.length ≤ 3 then [flux.shape.getLastD 1]
       else ((flux.shape.take (flux.shape.length - 3)) ++ [k, m, flux.shape.getLastD 1]).drop 2) := by
    rcases shape_cases flux.shape with e | ⟨c, e⟩ | ⟨b, c, e⟩ | ⟨pre, a, b, c, e⟩
    · exact ⟨[k, m, 1], by simp [e], k, m, [1], rfl, by simp [e]⟩
    · exact ⟨[k, m, c], by rw [e]; exact bc_flux_one, k, m, [c], rfl, by simp [e]⟩
    · rw [e, FluxFits.two] at hf
      exact ⟨[k, m, c], by rw [e]; exact bc_flux_two hm hf, k, m, [c], rfl, by simp [e]⟩
    · rw [e, FluxFits.three] at hf
      refine ⟨pre ++ [k, m, c], by rw [e]; exact bc_flux_three hk hm hf.1 hf.2, ?_⟩
      rw [e]
      match pre with
      | [] => exact ⟨k, m, [c], rfl, by simp⟩
      | [p] => exact ⟨p, k, [m, c], rfl, by simp⟩
      | p :: p' :: pre =>
        refine ⟨p, p', pre ++ [k, m, c], rfl, ?_⟩
        have e1 : (p :: p' :: pre ++ [a, b, c]).length - 3 = (p :: p' :: pre).length := by simp
        have e2 : (p :: p' :: pre ++ [a, b, c]).getLastD 1 = c := by
          rw [show p :: p' :: pre ++ [a, b, c] = (p :: p' :: pre ++ [a, b]) ++ [c] by simp, List.getLastD_concat]
        rw [if_neg (by simp), e1, List.take_left, e2]
        simp
  obtain ⟨d1, d2, S', rfl, hS'⟩ := hS'
  rw [e]
  refine Ok.bind (Q := fun r : Arr ℝ => r.shape = S') ?_ fun u hu => ?_
  · refine Ok.bind ⟨_, by rw [map2, h3.1, hS], rfl⟩ fun p hp => ?_
    subst hp
    exact ⟨_, rfl, rfl⟩
  · refine (logsm_ok ht hs hc).bind fun l hl => ?_
    refine (interp_0 (hto.map _) (ht.map _) hl).bind fun q0 hq0 => ?_
    have hq : Is0 (map Jnp.exp10 q0) (SspWeights.mstar_obs a b x y) := hq0.map _
    refine Ok.bind ⟨_, map2_any0 hq, rfl⟩ fun r hr => ?_
    subst hr
    exact .pure (by simpa [hu] using hS')

end Dsps.NdSed
