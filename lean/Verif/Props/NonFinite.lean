import Verif.Model.XFUtils
import Verif.Props.Utils
import Verif.Cases

/-! Properties about nan and inf, stated with the extended floats of `Verif/XF.lean`: when do the functions of dsps return a
finite number (which is then the number of the real-valued model), and what do they return otherwise?  Inputs are finite
floats (reals coerced with `XF.fin`). -/
namespace Dsps.Props
open XF Dsps.Lemmas

variable {n : ℕ}

/-! ## C78: inverse sigmoid -/

/-- C78: for a positive width and `ylo < yhi` the inverse sigmoid is finite exactly strictly inside the bounds (and equal to the
real-valued inverse there), `-inf` and `+inf` at the two bounds, and nan outside. -/
theorem C78_inverse_sigmoid (y x0 k ylo yhi : ℝ) (hk : 0 < k) (hy : ylo < yhi) :
    (ylo < y → y < yhi →
      Rep (XFUtils.inverse_sigmoid (fin y) (fin x0) (fin k) (fin ylo) (fin yhi)) (Utils.inverse_sigmoid y x0 k ylo yhi)) ∧
    (y = ylo → XFUtils.inverse_sigmoid (fin y) (fin x0) (fin k) (fin ylo) (fin yhi) = inf true) ∧
    (y = yhi → XFUtils.inverse_sigmoid (fin y) (fin x0) (fin k) (fin ylo) (fin yhi) = inf false) ∧
    (y < ylo ∨ yhi < y → XFUtils.inverse_sigmoid (fin y) (fin x0) (fin k) (fin ylo) (fin yhi) = nan) := by
  have hd : 0 < yhi - ylo := sub_pos.2 hy
  have hnum : Rep (fin yhi - fin ylo) (yhi - ylo) := (Rep.fin _).sub (Rep.fin _)
  have hden : Rep (fin y - fin ylo) (y - ylo) := (Rep.fin _).sub (Rep.fin _)
  have harg : y ≠ ylo → Rep ((fin yhi - fin ylo) / (fin y - fin ylo) - 1) ((yhi - ylo) / (y - ylo) - 1) := fun h =>
    (hnum.div hden (sub_ne_zero.2 h)).sub (Rep.fin 1)
  refine ⟨fun h1 h2 => ?_, fun h => ?_, fun h => ?_, fun h => ?_⟩
  · have hpos : 0 < (yhi - ylo) / (y - ylo) - 1 := by
      rw [sub_pos, lt_div_iff₀ (by linarith)]; linarith
    have hl : Rep (XF.log ((fin yhi - fin ylo) / (fin y - fin ylo) - 1)) (Real.log ((yhi - ylo) / (y - ylo) - 1)) := by
      rw [(harg h1.ne').log hpos]; exact Rep.fin _
    exact (Rep.fin x0).sub (hl.div (Rep.fin k) hk.ne')
  · subst h
    unfold XFUtils.inverse_sigmoid
    simp only
    have e0 : fin y - fin y = fin 0 := by
      by_cases h0 : y = 0 <;> simp [XF.neg, XF.add, h0]
    have e1 : (fin yhi - fin y) / fin 0 = inf false := by
      rw [hnum.div_zero (Rep.fin 0), if_neg hd.ne', hnum.signbit hd.ne']
      simp [XF.signbit, hy.le]
    have e2 : (inf false - 1 : XF) = inf false := (Rep.fin 1).inf_sub false
    rw [e0, e1, e2]
    show fin x0 - inf false / fin k = _
    rw [(Rep.fin k).inf_div hk.ne', (Rep.fin x0).sub_inf]
    simp [hk.le]
  · subst h
    unfold XFUtils.inverse_sigmoid
    simp only
    have h1 := harg hy.ne'
    rw [div_self hd.ne', sub_self] at h1
    rw [h1.log_zero, (Rep.fin k).inf_div hk.ne', (Rep.fin x0).sub_inf]
    simp [hk.le]
  · have hne : y ≠ ylo := by rcases h with h | h <;> [exact h.ne; exact (hy.trans h).ne']
    have hneg : (yhi - ylo) / (y - ylo) - 1 < 0 := by
      rcases h with h | h
      · have : (yhi - ylo) / (y - ylo) < 0 := div_neg_of_pos_of_neg hd (by linarith)
        linarith
      · rw [sub_neg, div_lt_one (by linarith)]; linarith
    unfold XFUtils.inverse_sigmoid
    simp only
    rw [(harg hne).log_neg hneg, nan_div, sub_nan]

/-- C78: the sigmoid is finite for every finite input, and equals the real-valued one. -/
theorem C78_sigmoid_finite (x x0 k ylo yhi : ℝ) :
    Rep (XFUtils.sigmoid (fin x) (fin x0) (fin k) (fin ylo) (fin yhi)) (Utils.sigmoid x x0 k ylo yhi) := by
  have h1 : Rep (-(fin k * (fin x - fin x0))) (-(k * (x - x0))) := ((Rep.fin k).mul ((Rep.fin x).sub (Rep.fin x0))).neg
  have h2 : Rep (XF.exp (-(fin k * (fin x - fin x0)))) (Real.exp (-(k * (x - x0)))) := by rw [h1.exp]; exact Rep.fin _
  have h3 := (Rep.fin 1).div ((Rep.fin 1).add h2) (by positivity)
  exact (Rep.fin ylo).add (((Rep.fin yhi).sub (Rep.fin ylo)).mul h3)

/-- C78: although the inverse is infinite at the bounds, mapping it back gives the bounds: the round trip bounded → unbounded →
bounded is exact on the closed interval. -/
theorem C78_boundary_roundtrip (x0 k ylo yhi : ℝ) (hk : 0 < k) (hy : ylo < yhi) (y : ℝ) (h1 : ylo ≤ y) (h2 : y ≤ yhi) :
    Rep (XFUtils.sigmoid (XFUtils.inverse_sigmoid (fin y) (fin x0) (fin k) (fin ylo) (fin yhi)) (fin x0) (fin k) (fin ylo)
      (fin yhi)) y := by
  obtain ⟨hin, hlo, hhi, -⟩ := C78_inverse_sigmoid y x0 k ylo yhi hk hy
  have hdiff : Rep (fin yhi - fin ylo) (yhi - ylo) := (Rep.fin _).sub (Rep.fin _)
  rcases h1.eq_or_lt with h | h1'
  · subst h
    rw [hlo rfl]
    unfold XFUtils.sigmoid
    simp only
    rw [(Rep.fin x0).inf_sub, (Rep.fin k).mul_inf hk.ne']
    have : -(inf (xor (decide (k < 0)) true)) = inf false := by simp [hk.le, XF.neg]
    rw [this]
    have e : (1 : XF) + XF.exp (inf false) = inf false := (Rep.fin 1).add_inf false
    rw [e]
    have := (Rep.fin ylo).add (hdiff.mul ((Rep.fin 1).div_inf false))
    rw [mul_zero, add_zero] at this
    exact this
  · rcases h2.eq_or_lt with h | h2'
    · subst h
      rw [hhi rfl]
      unfold XFUtils.sigmoid
      simp only
      rw [(Rep.fin x0).inf_sub, (Rep.fin k).mul_inf hk.ne']
      have : -(inf (xor (decide (k < 0)) false)) = inf true := by simp [hk.le, XF.neg]
      rw [this]
      have e : Rep (1 / (1 + XF.exp (inf true))) (1 / (1 + 0)) :=
        (Rep.fin 1).div ((Rep.fin 1).add (Rep.fin 0)) (by norm_num)
      have := (Rep.fin ylo).add (hdiff.mul e)
      simpa using this
    · have hr := hin h1' h2'
      have key : ∀ u : ℝ, Rep (XFUtils.inverse_sigmoid (fin y) (fin x0) (fin k) (fin ylo) (fin yhi)) u →
          Rep (XFUtils.sigmoid (XFUtils.inverse_sigmoid (fin y) (fin x0) (fin k) (fin ylo) (fin yhi)) (fin x0) (fin k)
            (fin ylo) (fin yhi)) (Utils.sigmoid u x0 k ylo yhi) := by
        intro u hu
        have h1 := ((Rep.fin k).mul (hu.sub (Rep.fin x0))).neg
        have h2 := h1.exp
        have h3 : Rep _ _ := Or.inl h2
        have h4 := (Rep.fin 1).div ((Rep.fin 1).add h3) (by positivity)
        exact (Rep.fin ylo).add (((Rep.fin yhi).sub (Rep.fin ylo)).mul h4)
      have := key _ hr
      rwa [(C08_sigmoid_inverse_sigmoid y x0 k ylo yhi hk.ne' (Or.inl ⟨h1', h2'⟩)).2] at this

/-- applied at the upper asymptote -/
example := C78_boundary_roundtrip 0 1 (-1) 1 (by norm_num) (by norm_num) 1 (by norm_num) (by norm_num)

/-- Example: the shipped burst-fraction bounds. -/
example : XFUtils.inverse_sigmoid (fin (-1)) (fin (-2)) (fin 0.1) (fin (-8)) (fin (-1)) = inf false ∧
    XFUtils.inverse_sigmoid (fin 0) (fin (-2)) (fin 0.1) (fin (-8)) (fin (-1)) = nan :=
  ⟨(C78_inverse_sigmoid (-1) (-2) 0.1 (-8) (-1) (by norm_num) (by norm_num)).2.2.1 rfl,
   (C78_inverse_sigmoid 0 (-2) 0.1 (-8) (-1) (by norm_num) (by norm_num)).2.2.2 (Or.inr (by norm_num))⟩

/-! ## C79: soft binning with zero scatter -/

theorem rep_tw {a b c : XF} {x m h : ℝ} (ha : Rep a x) (hb : Rep b m) (hc : Rep c h) (h0 : h ≠ 0) :
    Rep (XFUtils.tw_cuml_kern a b c) (Utils.tw_cuml_kern x m h) := by
  classical
  have hz := (ha.sub hb).div hc h0
  refine rep_ite (Rep.lt_iff (Rep.fin 3) hz) (fun _ => Rep.fin 1) (fun _ =>
    rep_ite (hz.lt_iff (Rep.fin 3).neg) (fun _ => Rep.fin 0) (fun _ => ?_))
  exact ((((((Rep.fin 5).neg.mul (hz.npow 7)).div (Rep.fin 69984) (by norm_num)).add
    (((Rep.fin 7).mul (hz.npow 5)).div (Rep.fin 2592) (by norm_num))).sub
    (((Rep.fin 35).mul (hz.npow 3)).div (Rep.fin 864) (by norm_num))).add
    (((Rep.fin 35).mul hz).div (Rep.fin 96) (by norm_num))).add ((Rep.fin 1).div (Rep.fin 2) (by norm_num))

/-- The kernel at width exactly zero is a step function, undefined at the step. -/
theorem tw_zero (x m : ℝ) : XFUtils.tw_cuml_kern (fin x) (fin m) (fin 0) =
    if x < m then fin 0 else if m < x then fin 1 else nan := by
  have hd : Rep (fin x - fin m) (x - m) := (Rep.fin _).sub (Rep.fin _)
  have hz := hd.div_zero (Rep.fin 0)
  unfold XFUtils.tw_cuml_kern
  simp only
  rw [hz]
  rcases lt_trichotomy x m with h | h | h
  · have hne : x - m ≠ 0 := by linarith
    rw [if_neg hne, hd.signbit hne]
    have : decide (x - m < 0) = true := by simpa using h
    rw [this, if_pos h]
    have e1 : ¬ ((3 : XF) < inf (xor true (fin 0).signbit)) := by
      simp [XF.signbit]; show ¬ XF.lt (fin 3) (inf true); simp [XF.lt]
    have e2 : (inf (xor true (fin 0).signbit) : XF) < -3 := by
      simp [XF.signbit]; show XF.lt (inf true) (XF.neg (fin 3)); simp [XF.neg, XF.lt]
    rw [if_neg e1, if_pos e2]; rfl
  · subst h
    simp only [sub_self, if_true, lt_irrefl, if_false, not_lt_nan, not_nan_lt]
    have hp : ∀ k : ℕ, (nan : XF) ^ (k + 1) = nan := by
      intro k
      induction k with
      | zero => rfl
      | succ k ih =>
        show XF.npow nan (k + 1) * nan = nan
        exact mul_nan _
    rw [hp 6, hp 4, hp 2]
    simp only [mul_nan, nan_div, nan_add, nan_sub, add_nan]
  · have hne : x - m ≠ 0 := by linarith
    rw [if_neg hne, hd.signbit hne, if_neg h.not_gt, if_pos h]
    have : decide (x - m < 0) = false := by simpa using h.le
    rw [this]
    have e1 : ((3 : XF) < inf (xor false (fin 0).signbit)) := by
      simp [XF.signbit]; show XF.lt (fin 3) (inf false); simp [XF.lt]
    rw [if_pos e1]; rfl

theorem rep_hist {a c : XF} {x sig : ℝ} (ha : Rep a x) (hc : Rep c sig) (h0 : sig ≠ 0) {E : Fin (n + 1) → XF}
    {e : Fin (n + 1) → ℝ} (hE : ∀ j, Rep (E j) (e j)) (i : Fin n) :
    Rep (XFUtils.triweighted_histogram a c E i) (Utils.triweighted_histogram x sig e i) :=
  (rep_tw ha (hE _) hc h0).sub (rep_tw ha (hE _) hc h0)

theorem rep_fill {a : XF} {x : ℝ} (ha : Rep a x) {E : Fin (n + 2) → XF} {e : Fin (n + 2) → ℝ} (hE : ∀ j, Rep (E j) (e j))
    {w : Fin (n + 1) → XF} {v : Fin (n + 1) → ℝ} (hw : ∀ i, Rep (w i) (v i)) (i : Fin (n + 1)) :
    Rep (XFUtils.fill_empty_weights_singlepoint a E w i) (Utils.fill_empty_weights_singlepoint x e v i) := by
  classical
  have hz : (∀ i, XF.eqv (w i) 0) ↔ ∀ i, v i = 0 := forall_congr' fun i => (hw i).eqv_iff (Rep.fin 0)
  have hlo : (a < E 0) ↔ x < e 0 := ha.lt_iff (hE _)
  have hhi : (E (Fin.last (n + 1)) < a) ↔ x > Jnp.last e := (hE _).lt_iff ha
  have hupd : ∀ j : Fin (n + 1), Rep (Function.update (fun _ => (0 : XF)) j 1 i)
      (Jnp.setAt (Jnp.zeros (n + 1)) j 1.0 i) := by
    intro j
    unfold Jnp.setAt Jnp.zeros
    by_cases hij : i = j
    · subst hij; rw [Function.update_self, Function.update_self]; norm_num; exact Rep.fin 1
    · rw [Function.update_of_ne hij, Function.update_of_ne hij]; exact Rep.fin 0
  unfold XFUtils.fill_empty_weights_singlepoint Utils.fill_empty_weights_singlepoint
  show Rep ((if _ then _ else if _ then _ else w : Fin (n + 1) → XF) i) ((if _ then _ else if _ then _ else v : Fin (n + 1) → ℝ) i)
  rw [apply_ite (fun f : Fin (n + 1) → XF => f i), apply_ite (fun f : Fin (n + 1) → ℝ => f i),
    apply_ite (fun f : Fin (n + 1) → XF => f i), apply_ite (fun f : Fin (n + 1) → ℝ => f i)]
  exact rep_ite (and_congr hz hhi) (fun _ => hupd _) fun _ => rep_ite (and_congr hz hlo) (fun _ => hupd _) fun _ => hw i

theorem rep_ite_val {p q : Prop} [Decidable p] [Decidable q] (hpq : p ↔ q) {a b : XF} {x y : ℝ} (h : Rep a x) (h' : Rep b y) :
    Rep (if p then a else b) (if q then x else y) := rep_ite hpq (fun _ => h) (fun _ => h')

theorem rep_lgmet_singlegal {a c : XF} {x sig : ℝ} (ha : Rep a x) (hc : Rep c sig) (h0 : sig ≠ 0) {E : Fin (n + 2) → XF}
    {e : Fin (n + 2) → ℝ} (hE : ∀ j, Rep (E j) (e j)) (i : Fin (n + 1)) :
    Rep (XFUtils.get_lgmet_weights_singlegal a c E i) (MetallicityWeights.get_lgmet_weights_singlegal x sig e i) := by
  classical
  have hh : ∀ i, Rep _ _ := fun i => rep_hist ha hc h0 hE i
  have hS := rep_sum hh
  have hS' := rep_ite_val (hS.eqv_iff (Rep.fin 0)) (Rep.fin 1.0) hS
  have hne : (if Jnp.sum (fun i => Utils.triweighted_histogram x sig e i) = 0 then (1.0 : ℝ)
      else Jnp.sum fun i => Utils.triweighted_histogram x sig e i) ≠ 0 := by
    split_ifs with h
    · norm_num
    · exact h
  have e1 : (fin 1.0 : XF) = 1 := by show fin 1.0 = fin 1; norm_num
  have hw : ∀ i, Rep _ _ := fun i => (hh i).div hS' hne
  have := rep_fill ha hE hw i
  rw [e1] at this
  exact this

/-- C79: with non-zero scatter the metallicity weights (and the generic soft-binning weights) are finite for every finite input,
whatever the edges, and equal the real-valued model. -/
theorem C79_nonzero_scatter_finite (x sig : ℝ) (hs : sig ≠ 0) (e : Fin (n + 2) → ℝ) (i : Fin (n + 1)) :
    Rep (XFUtils.get_lgmet_weights_singlegal (fin x) (fin sig) (fun j => fin (e j)) i)
      (MetallicityWeights.get_lgmet_weights_singlegal x sig e i) :=
  rep_lgmet_singlegal (Rep.fin x) (Rep.fin sig) hs (fun _ => Rep.fin _) i

example (i : Fin 2) := C79_nonzero_scatter_finite (n := 1) 0.3 (-0.2) (by norm_num) ![0, 1, 2] i

/-- C79: with scatter exactly zero and strictly increasing edges: if the galaxy metallicity falls exactly on a bin edge every
weight is nan; otherwise all the weight is in the bin that contains it (the first or last bin when it lies outside). -/
theorem C79_zero_scatter (x : ℝ) (e : Fin (n + 2) → ℝ) (he : StrictMono e) :
    ((∃ j, x = e j) → ∀ i, XFUtils.get_lgmet_weights_singlegal (fin x) (fin 0) (fun j => fin (e j)) i = nan) ∧
    ((∀ j, x ≠ e j) → ∀ i : Fin (n + 1), Rep (XFUtils.get_lgmet_weights_singlegal (fin x) (fin 0) (fun j => fin (e j)) i)
      (if (i = 0 ∨ e i.castSucc < x) ∧ (i = Fin.last n ∨ x < e i.succ) then 1 else 0)) := by
  classical
  constructor
  · rintro ⟨j, rfl⟩ i
    -- some bin of the histogram is nan
    have hnan : ∃ k, XFUtils.triweighted_histogram (fin (e j)) (fin 0) (fun j => fin (e j)) k = nan := by
      have hkern : XFUtils.tw_cuml_kern (fin (e j)) (fin (e j)) (fin 0) = nan := by
        rw [tw_zero]; simp
      by_cases hj : j = Fin.last (n + 1)
      · refine ⟨Fin.last n, ?_⟩
        unfold XFUtils.triweighted_histogram XFUtils.triweighted_histogram_kernel
        simp only [Fin.succ_last, ← hj, hkern, sub_nan]
      · obtain ⟨k, hk⟩ := Fin.exists_castSucc_eq.2 hj
        refine ⟨k, ?_⟩
        unfold XFUtils.triweighted_histogram XFUtils.triweighted_histogram_kernel
        simp only [hk, hkern, nan_sub]
    obtain ⟨k, hk⟩ := hnan
    unfold XFUtils.get_lgmet_weights_singlegal
    simp only [sum_nan hk]
    rw [if_neg (by intro h; exact h)]
    unfold XFUtils.fill_empty_weights_singlepoint
    simp only [div_nan]
    have hz : ¬ ∀ i : Fin (n + 1), XF.eqv nan 0 := fun h => h 0
    rw [if_neg (fun h => hz h.1), if_neg (fun h => hz h.1)]
  · intro hx i
    -- the histogram is the indicator of the bin
    have hh : ∀ i : Fin (n + 1), Rep (XFUtils.triweighted_histogram (fin x) (fin 0) (fun j => fin (e j)) i)
        (if e i.castSucc < x ∧ x < e i.succ then 1 else 0) := by
      intro i
      have hlt := he (Fin.castSucc_lt_succ (i := i))
      unfold XFUtils.triweighted_histogram XFUtils.triweighted_histogram_kernel
      simp only [tw_zero]
      rcases lt_or_gt_of_ne (hx i.castSucc) with h1 | h1
      · rw [if_pos h1, if_pos (h1.trans hlt), if_neg (fun h => h1.not_gt h.1)]
        simpa using (Rep.fin 0).sub (Rep.fin 0)
      · rcases lt_or_gt_of_ne (hx i.succ) with h2 | h2
        · rw [if_neg h1.not_gt, if_pos h1, if_pos h2, if_pos ⟨h1, h2⟩]
          simpa using (Rep.fin 1).sub (Rep.fin 0)
        · rw [if_neg h1.not_gt, if_pos h1, if_neg h2.not_gt, if_pos h2, if_neg (fun h => h2.not_gt h.2)]
          simpa using (Rep.fin 1).sub (Rep.fin 1)
    have hS := rep_sum hh
    -- at most one bin is occupied
    have huniq : ∀ i j : Fin (n + 1), (e i.castSucc < x ∧ x < e i.succ) → (e j.castSucc < x ∧ x < e j.succ) → i = j := by
      intro i j hi hj
      by_contra hij
      rcases lt_or_gt_of_ne hij with h | h
      · have := he.monotone (show i.succ ≤ j.castSucc from Fin.succ_le_castSucc_iff.2 h)
        linarith [hi.2, hj.1]
      · have := he.monotone (show j.succ ≤ i.castSucc from Fin.succ_le_castSucc_iff.2 h)
        linarith [hj.2, hi.1]
    by_cases hin : ∃ k : Fin (n + 1), e k.castSucc < x ∧ x < e k.succ
    · obtain ⟨k, hk⟩ := hin
      have hval : ∀ i : Fin (n + 1), (if e i.castSucc < x ∧ x < e i.succ then (1 : ℝ) else 0) = if i = k then 1 else 0 := by
        intro i
        by_cases hik : i = k
        · subst hik; rw [if_pos hk, if_pos rfl]
        · rw [if_neg hik, if_neg (fun h => hik (huniq i k h hk))]
      have hsum : Jnp.sum (fun i : Fin (n + 1) => if e i.castSucc < x ∧ x < e i.succ then (1 : ℝ) else 0) = 1 := by
        unfold Jnp.sum; simp only [hval]; simp
      rw [hsum] at hS
      have hS' : Rep (if XF.eqv (XF.sum (XFUtils.triweighted_histogram (fin x) (fin 0) fun j => fin (e j))) 0 then (1 : XF)
          else XF.sum (XFUtils.triweighted_histogram (fin x) (fin 0) fun j => fin (e j))) 1 := by
        rw [if_neg]
        · exact hS
        · exact fun h => one_ne_zero ((hS.eqv_iff (Rep.fin 0)).1 h)
      have hw : ∀ i, Rep _ _ := fun i => (hh i).div hS' one_ne_zero
      have := rep_fill (Rep.fin x) (e := e) (fun j => Rep.fin _) hw i
      have hfill : Utils.fill_empty_weights_singlepoint x e
          (fun i => (if e i.castSucc < x ∧ x < e i.succ then (1 : ℝ) else 0) / 1) i =
          if (i = 0 ∨ e i.castSucc < x) ∧ (i = Fin.last n ∨ x < e i.succ) then 1 else 0 := by
        unfold Utils.fill_empty_weights_singlepoint
        have hz : ¬ ∀ i : Fin (n + 1), (if e i.castSucc < x ∧ x < e i.succ then (1 : ℝ) else 0) / 1 = 0 := by
          intro h; have := h k; rw [if_pos hk] at this; norm_num at this
        simp only
        rw [if_neg (fun h => hz h.1), if_neg (fun h => hz h.1), div_one]
        have hlow : e 0 < x := lt_of_le_of_lt (he.monotone (Fin.zero_le _)) hk.1
        have hhigh : x < e (Fin.last (n + 1)) := lt_of_lt_of_le hk.2 (he.monotone (Fin.le_last _))
        refine if_congr ⟨fun h => ⟨Or.inr h.1, Or.inr h.2⟩, fun h => ⟨?_, ?_⟩⟩ rfl rfl
        · rcases h.1 with h | h
          · subst h; exact hlow
          · exact h
        · rcases h.2 with h | h
          · subst h; exact hhigh
          · exact h
      rw [hfill] at this
      exact this
    · push Not at hin
      have hall : ∀ i : Fin (n + 1), ¬ (e i.castSucc < x ∧ x < e i.succ) := fun i h =>
        (hin i h.1).not_gt h.2
      have hh0 : ∀ i, Rep (XFUtils.triweighted_histogram (fin x) (fin 0) (fun j => fin (e j)) i) 0 := by
        intro i; have := hh i; rwa [if_neg (hall i)] at this
      have hS0 : Rep (XF.sum (XFUtils.triweighted_histogram (fin x) (fin 0) fun j => fin (e j))) 0 := by
        have := rep_sum hh0; simpa [Jnp.sum] using this
      have hS' : Rep (if XF.eqv (XF.sum (XFUtils.triweighted_histogram (fin x) (fin 0) fun j => fin (e j))) 0 then (1 : XF)
          else XF.sum (XFUtils.triweighted_histogram (fin x) (fin 0) fun j => fin (e j))) 1 := by
        rw [if_pos]
        · exact Rep.fin 1
        · exact (hS0.eqv_iff (Rep.fin 0)).2 rfl
      have hw : ∀ i, Rep _ _ := fun i => (hh0 i).div hS' one_ne_zero
      have := rep_fill (Rep.fin x) (e := e) (fun j => Rep.fin _) hw i
      -- x is below all edges or above all edges
      have hout : x < e 0 ∨ e (Fin.last (n + 1)) < x := by
        by_contra hcon
        push Not at hcon
        have h0 : e 0 < x := lt_of_le_of_ne hcon.1 (Ne.symm (hx 0))
        have hind : ∀ j : Fin (n + 2), e j < x := by
          intro j
          induction j using Fin.induction with
          | zero => exact h0
          | succ i ih => exact lt_of_le_of_ne (hin i ih) (Ne.symm (hx _))
        exact (hcon.2).not_gt (hind _)
      have hfill : Utils.fill_empty_weights_singlepoint x e (fun _ : Fin (n + 1) => (0 : ℝ) / 1) i =
          if (i = 0 ∨ e i.castSucc < x) ∧ (i = Fin.last n ∨ x < e i.succ) then 1 else 0 := by
        have hz : ∀ i : Fin (n + 1), (0 : ℝ) / 1 = 0 := fun _ => zero_div 1
        rcases hout with h | h
        · have hno : ¬ x > e (Fin.last (n + 1)) := by
            have := he.monotone (Fin.zero_le (Fin.last (n + 1))); intro h'; linarith
          have h1 : ∀ j, x < e j := fun j => lt_of_lt_of_le h (he.monotone (Fin.zero_le _))
          have hf : Utils.fill_empty_weights_singlepoint x e (fun _ : Fin (n + 1) => (0 : ℝ) / 1) =
              Jnp.setAt (Jnp.zeros (n + 1)) 0 1.0 := by
            unfold Utils.fill_empty_weights_singlepoint
            simp only
            split_ifs with h1 h2 h2
            · exact absurd h1.2 hno
            · rfl
            · exact absurd ⟨hz, h⟩ h2
          rw [hf]
          unfold Jnp.setAt Jnp.zeros
          rw [Function.update_apply]
          have hiff : ((i = 0 ∨ e i.castSucc < x) ∧ (i = Fin.last n ∨ x < e i.succ)) ↔ i = 0 :=
            ⟨fun h => h.1.resolve_right (h1 _).not_gt, fun h => ⟨Or.inl h, Or.inr (h1 _)⟩⟩
          rw [if_congr hiff rfl rfl]; norm_num
        · have hno : ¬ x < e 0 := by
            have := he.monotone (Fin.zero_le (Fin.last (n + 1))); intro h'; linarith
          have h1 : ∀ j, e j < x := fun j => lt_of_le_of_lt (he.monotone (Fin.le_last _)) h
          have hf : Utils.fill_empty_weights_singlepoint x e (fun _ : Fin (n + 1) => (0 : ℝ) / 1) =
              Jnp.setAt (Jnp.zeros (n + 1)) (Fin.last n) 1.0 := by
            unfold Utils.fill_empty_weights_singlepoint
            simp only
            split_ifs with h1 h2 h2
            · rfl
            · exact absurd ⟨hz, h⟩ h1
            · exact absurd ⟨hz, h⟩ h1
          rw [hf]
          unfold Jnp.setAt Jnp.zeros
          rw [Function.update_apply]
          have hiff : ((i = 0 ∨ e i.castSucc < x) ∧ (i = Fin.last n ∨ x < e i.succ)) ↔ i = Fin.last n :=
            ⟨fun h => h.2.resolve_right (h1 _).not_gt, fun h => ⟨Or.inr (h1 _), Or.inl h⟩⟩
          rw [if_congr hiff rfl rfl]; norm_num
      rw [hfill] at this
      exact this

/-- on an edge, and between two edges -/
example := (C79_zero_scatter (n := 1) 1 ![0, 1, 2] (Case.sm3 (by norm_num) (by norm_num))).1 ⟨1, rfl⟩
example := (C79_zero_scatter (n := 1) 0.5 ![0, 1, 2] (Case.sm3 (by norm_num) (by norm_num))).2 (by intro j; fin_cases j <;> norm_num)

/-- Both cases of C79 occur on the edges 0, 1, 2. -/
example : (∃ j : Fin 3, (1 : ℝ) = (![0, 1, 2] : Fin 3 → ℝ) j) ∧ ∀ j : Fin 3, (1.5 : ℝ) ≠ (![0, 1, 2] : Fin 3 → ℝ) j :=
  ⟨⟨1, rfl⟩, fun j => by fin_cases j <;> norm_num⟩

end Dsps.Props
