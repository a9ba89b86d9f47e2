import Verif.Lemmas.Nested
import Verif.Lemmas.GenSed
import Verif.Lemmas.GenPhot
import Verif.Model.GenMore

/-! The functions of dsps map correctly recorded numbers to correctly recorded numbers, at every level of nested differentiation, away from the joins of their piecewise
definitions. -/
namespace Nested
open XF Topology Filter Dsps Dsps.Constants Dsps.Lemmas Spec

variable {ι α : Type} [Fintype ι] [Flt α] [Tracer ι α] {θ : ι → ℝ} {n m k w : ℕ}

/-- entrywise `Tr` -/
def TrV (a : Fin n → α) (F : (ι → ℝ) → Fin n → ℝ) (θ : ι → ℝ) : Prop := ∀ j, Tr (a j) (fun y => F y j) θ

theorem lt_iff {a b : α} {f g : (ι → ℝ) → ℝ} (ha : Tr a f θ) (hb : Tr b g θ) : Gen.lt a b ↔ f θ < g θ := ha.rep.lt_iff hb.rep
theorem eqv_iff {a b : α} {f g : (ι → ℝ) → ℝ} (ha : Tr a f θ) (hb : Tr b g θ) : Gen.eqv a b ↔ f θ = g θ := ha.rep.eqv_iff hb.rep
theorem le_iff {a b : α} {f g : (ι → ℝ) → ℝ} (ha : Tr a f θ) (hb : Tr b g θ) : Gen.le a b ↔ f θ ≤ g θ := ha.rep.le_iff hb.rep

namespace TrV
variable {F G : (ι → ℝ) → Fin n → ℝ}

theorem rep {a : Fin n → α} (h : TrV a F θ) : RepV (fun j => Flt.value (a j)) (F θ) := fun j => (h j).rep

theorem lit (x : Fin n → ℝ) : TrV (fun i => (Flt.lit (x i) : α)) (fun _ => x) θ := fun _ => Tr.lit _

theorem setAt {a : Fin n → α} (h : TrV a F θ) (j : Fin n) {b : α} {y : (ι → ℝ) → ℝ} (hb : Tr b y θ) :
    TrV (Jnp.setAt a j b) (fun θ => Jnp.setAt (F θ) j (y θ)) θ := by
  intro i
  unfold Jnp.setAt
  by_cases hij : i = j
  · subst hij; simpa only [Function.update_self] using hb
  · simpa only [Function.update_of_ne hij] using h i

theorem setInit {F : (ι → ℝ) → Fin (n + 1) → ℝ} {a : Fin (n + 1) → α} (h : TrV a F θ) {b : Fin n → α} (hb : TrV b G θ) :
    TrV (Jnp.setInit a b) (fun θ => Jnp.setInit (F θ) (G θ)) θ := by
  intro i
  unfold Jnp.setInit
  induction i using Fin.lastCases with
  | last => simpa using h _
  | cast i => simpa using hb i

theorem setTail {F : (ι → ℝ) → Fin (n + 1) → ℝ} {a : Fin (n + 1) → α} (h : TrV a F θ) {b : Fin n → α} (hb : TrV b G θ) :
    TrV (Jnp.setTail a b) (fun θ => Jnp.setTail (F θ) (G θ)) θ := by
  intro i
  unfold Jnp.setTail
  induction i using Fin.cases with
  | zero => simpa using h _
  | succ i => simpa using hb i

theorem zeros (n : ℕ) : TrV (Gen.zeros n : Fin n → α) (fun _ => Jnp.zeros n) θ := fun _ => Tr.lit 0

theorem tail {F : (ι → ℝ) → Fin (n + 1) → ℝ} {a : Fin (n + 1) → α} (h : TrV a F θ) : TrV (Jnp.tail a) (fun θ => Jnp.tail (F θ)) θ := fun i => h i.succ
theorem diff {F : (ι → ℝ) → Fin (n + 1) → ℝ} {a : Fin (n + 1) → α} (h : TrV a F θ) : TrV (Gen.diff a) (fun θ => Jnp.diff (F θ)) θ :=
  fun i => (h i.succ).sub (h i.castSucc)

theorem setInterior {F : (ι → ℝ) → Fin (n + 2) → ℝ} {a : Fin (n + 2) → α} (h : TrV a F θ) {b : Fin n → α} (hb : TrV b G θ) :
    TrV (Jnp.setInterior a b) (fun θ => Jnp.setInterior (F θ) (G θ)) θ := h.setTail (h.tail.setInit hb)

theorem half {a : α} {f : (ι → ℝ) → ℝ} (h : Tr a f θ) : Tr (a / Flt.lit 2) (fun θ => f θ / 2) θ := h.div (Tr.lit 2) (by norm_num)

theorem dt {F : (ι → ℝ) → Fin (n + 3) → ℝ} {a : Fin (n + 3) → α} (h : TrV a F θ) :
    TrV (Gen.jax_get_dt_array a) (fun θ => Utils.jax_get_dt_array (F θ)) θ := by
  unfold Gen.jax_get_dt_array Utils.jax_get_dt_array
  have hm : TrV (fun i : Fin (n + 2) => Flt.lit 0.5 * (Jnp.init a i + Jnp.tail a i)) (fun θ i => 0.5 * (Jnp.init (F θ) i + Jnp.tail (F θ) i)) θ :=
    fun i => (Tr.lit 0.5).mul ((h _).add (h _))
  have hd := hm.diff
  refine setAt (setAt (setInterior (zeros _) hd) _ ?_) _ ?_
  · exact (hm 0).sub ((h 0).sub (half ((h 1).sub (h 0))))
  · exact ((h _).add (half (hd _))).sub (hm _)

theorem edges {F : (ι → ℝ) → Fin (n + 3) → ℝ} {a : Fin (n + 3) → α} (h : TrV a F θ) {l r : α} {u v : (ι → ℝ) → ℝ} (hl : Tr l u θ) (hr : Tr r v θ) :
    TrV (Gen.get_bin_edges a l r) (fun θ => Utils.get_bin_edges (F θ) (u θ) (v θ)) θ := by
  unfold Gen.get_bin_edges Utils.get_bin_edges
  exact setAt (setAt (setInit (zeros _) fun i => (h i).sub (half (h.dt i))) _ hl) _ hr

theorem lg_age_edges {F : (ι → ℝ) → Fin (m + 3) → ℝ} {a : Fin (m + 3) → α} (h : TrV a F θ) :
    TrV (Gen.get_lg_age_bin_edges a) (fun θ => StellarAgeWeights.get_lg_age_bin_edges (F θ)) θ := by
  unfold Gen.get_lg_age_bin_edges StellarAgeWeights.get_lg_age_bin_edges
  refine setAt (setAt (setInit (zeros _) fun i => (h i).sub (half (h.dt i))) _ ?_) _ ?_
  · exact (h 0).sub (half ((h 1).sub (h 0)))
  · exact (h _).add (half (h.dt _))

theorem cumtrapz {F G : (ι → ℝ) → Fin (n + 1) → ℝ} {a b : Fin (n + 1) → α} (ha : TrV a F θ) (hb : TrV b G θ) :
    TrV (Gen.cumtrapz a b) (fun θ => Utils.cumtrapz (F θ) (G θ)) θ := by
  intro i
  unfold Gen.cumtrapz Utils.cumtrapz
  refine scan_fun (Θ := ι → ℝ)
    (fun s1 s' => Tr s1.1 (fun θ => (s' θ).1) θ ∧ Tr s1.2.1 (fun θ => (s' θ).2.1) θ ∧ Tr s1.2.2 (fun θ => (s' θ).2.2) θ)
    (fun b b' => Tr b.1 (fun θ => (b' θ).1) θ ∧ Tr b.2 (fun θ => (b' θ).2) θ) (fun g g' => Tr g g' θ) ?_
    _ (fun θ => (F θ 0, G θ 0, 0)) _ (fun θ i => (F θ i, G θ i)) ⟨ha 0, hb 0, Tr.lit 0⟩ (fun i => ⟨ha i, hb i⟩) i
  rintro ⟨s1, s2, s3⟩ t ⟨b1, b2⟩ c ⟨h1, h2, h3⟩ ⟨g1, g2⟩
  have hc := h3.add (((g1.sub h1).mul (g2.add h2)).div (Tr.lit 2.0) (by norm_num))
  exact ⟨⟨g1, g2, hc⟩, hc⟩

theorem trapz {F G : (ι → ℝ) → Fin (n + 1) → ℝ} {a b : Fin (n + 1) → α} (ha : TrV a F θ) (hb : TrV b G θ) :
    Tr (Gen.trapz a b) (fun θ => Utils.trapz (F θ) (G θ)) θ := (Tr.lit 0.5).mul (Tr.sum fun i => (ha.diff i).mul ((hb _).add (hb _)))

theorem mstar {F G : (ι → ℝ) → Fin n → ℝ} {a b : Fin n → α} (ha : TrV a F θ) (hb : TrV b G θ) :
    TrV (Gen.cumulative_mstar_formed a b) (fun θ => Utils.cumulative_mstar_formed (F θ) (G θ)) θ := by
  unfold Gen.cumulative_mstar_formed Utils.cumulative_mstar_formed
  intro i
  exact (cumtrapz (((zeros _).setAt _ (Tr.lit _)).setTail ha) (((zeros _).setAt _ (Tr.lit _)).setTail hb)).tail i |>.mul (Tr.lit _)

end TrV

/-! ### triweight kernel -/

theorem tr_tw_cuml {a b c : α} {x u h : (ι → ℝ) → ℝ} (ha : Tr a x θ) (hb : Tr b u θ) (hc : Tr c h θ)
    (h0 : h θ ≠ 0) (hj : (x θ - u θ) / h θ ≠ -3 ∧ (x θ - u θ) / h θ ≠ 3) : Tr (Gen.tw_cuml_kern a b c) (fun θ => Utils.tw_cuml_kern (x θ) (u θ) (h θ)) θ := by
  have e : (fun θ => Utils.tw_cuml_kern (x θ) (u θ) (h θ)) = fun θ => twC ((x θ - u θ) / h θ) := by
    funext θ; exact tw_cuml_kern_eq _ _ _
  rw [e]
  have hz := (ha.sub hb).div hc h0
  set z : (ι → ℝ) → ℝ := fun θ => (x θ - u θ) / h θ with hzdef
  have hP : Tr _ (fun θ => twP (z θ)) θ := ((((((Tr.lit 5).neg.mul (hz.ipow 7)).div (Tr.lit 69984) (by norm_num)).add
    (((Tr.lit 7).mul (hz.ipow 5)).div (Tr.lit 2592) (by norm_num))).sub
    (((Tr.lit 35).mul (hz.ipow 3)).div (Tr.lit 864) (by norm_num))).add
    (((Tr.lit 35).mul hz).div (Tr.lit 96) (by norm_num))).add ((Tr.lit 1).div (Tr.lit 2) (by norm_num))
  have hlo : Gen.lt ((a - b) / c) (-(Flt.lit 3)) ↔ z θ < -3 := lt_iff hz (Tr.lit (3:ℝ)).neg
  have hhi : Gen.lt (Flt.lit 3) ((a - b) / c) ↔ 3 < z θ := lt_iff (Tr.lit (3:ℝ)) hz
  have hcz := hz.cont
  unfold Gen.tw_cuml_kern
  dsimp only
  rcases lt_or_gt_of_ne hj.1 with h1 | h1
  · refine (Tr.sel_neg (fun h' => ?_) (Tr.lit 1) (Tr.sel_pos (hlo.2 h1) (Tr.lit 0) hP)).congr ?_
    · have := hhi.1 h'; have h1' : z θ < -3 := h1; linarith
    · filter_upwards [hcz.eventually_lt_const h1] with y hy
      have hy' : z y < -3 := hy
      simp only [twC, gt_iff_lt]; rw [if_neg (by linarith), if_pos hy']
  · rcases lt_or_gt_of_ne hj.2 with h2 | h2
    · refine (Tr.sel_neg (fun h' => lt_asymm h2 (hhi.1 h')) (Tr.lit 1) (Tr.sel_neg (fun h' => lt_asymm h1 (hlo.1 h')) (Tr.lit 0) hP)).congr ?_
      filter_upwards [hcz.eventually_lt_const h2, hcz.eventually_const_lt h1] with y hy1 hy2
      simp only [twC, gt_iff_lt]; rw [if_neg (not_lt.2 (le_of_lt hy1)), if_neg (not_lt.2 (le_of_lt hy2))]
    · refine (Tr.sel_pos (hhi.2 h2) (Tr.lit 1) (Tr.sel_neg (fun h' => lt_asymm h1 (hlo.1 h')) (Tr.lit 0) hP)).congr ?_
      filter_upwards [hcz.eventually_const_lt h2] with y hy
      simp only [twC, gt_iff_lt]; exact if_pos hy

/-- no join of the kernel: the mean is not exactly three widths from a bin edge -/
def OffJoins (x sig : ℝ) {n : ℕ} (e : Fin n → ℝ) : Prop := ∀ j, |x - e j| ≠ 3 * sig

theorem OffJoins.ne {x sig : ℝ} {n : ℕ} {e : Fin n → ℝ} (h : OffJoins x sig e) (hs : 0 < sig) (j : Fin n) : (x - e j) / sig ≠ -3 ∧ (x - e j) / sig ≠ 3 := by
  constructor <;> intro h' <;> refine h j ?_ <;> rw [div_eq_iff hs.ne'] at h' <;> rw [h']
  · rw [abs_mul, abs_of_pos hs]; norm_num
  · rw [abs_mul, abs_of_pos hs]; norm_num

theorem tr_hist {a b : α} {x sig : (ι → ℝ) → ℝ} {E : Fin (n + 1) → α} {e : (ι → ℝ) → Fin (n + 1) → ℝ} (ha : Tr a x θ)
    (hb : Tr b sig θ) (he : TrV E e θ) (h0 : 0 < sig θ) (hj : OffJoins (x θ) (sig θ) (e θ)) (i : Fin n) :
    Tr (Gen.triweighted_histogram a b E i) (fun θ => Utils.triweighted_histogram (x θ) (sig θ) (e θ) i) θ :=
  (tr_tw_cuml ha (he _) hb h0.ne' (hj.ne h0 _)).sub (tr_tw_cuml ha (he _) hb h0.ne' (hj.ne h0 _))

theorem tr_oneHot (j i : Fin n) : Tr (Function.update (fun _ => (Flt.lit 0 : α)) j (Flt.lit 1) i) (fun _ => if i = j then (1:ℝ) else 0) θ := by
  by_cases h : i = j
  · subst h; simp only [Function.update_self, if_true]; exact Tr.lit 1
  · simp only [Function.update_of_ne h, if_neg h]; exact Tr.lit 0

theorem tr_triweights_overlap {a b : α} {x sig : (ι → ℝ) → ℝ} {E : Fin (n + 2) → α} {e : (ι → ℝ) → Fin (n + 2) → ℝ} (ha : Tr a x θ)
    (hb : Tr b sig θ) (he : TrV E e θ) (hpos : 0 < sig θ) (hmono : StrictMono (e θ)) (hj : OffJoins (x θ) (sig θ) (e θ))
    (hlo : e θ 0 - 3 * sig θ < x θ) (hhi : x θ < e θ (Fin.last (n + 1)) + 3 * sig θ) (i : Fin (n + 1)) :
    Tr (Gen.get_lgmet_weights_singlegal a b E i) (fun θ => Utils.get_triweights_singlepoint (x θ) (sig θ) (e θ) i) θ := by
  have hk := tr_hist ha hb he hpos hj
  set H : (ι → ℝ) → Fin (n + 1) → ℝ := fun θ => Utils.triweighted_histogram (x θ) (sig θ) (e θ) with hH
  have hS : Tr _ (fun θ => Jnp.sum (H θ)) θ := Tr.sum hk
  have hne : Jnp.sum (H θ) ≠ 0 := (Props.tw_hist_sum_pos (x θ) (sig θ) hpos (e θ) (hmono Fin.last_pos) hlo hhi).ne'
  have hz : ¬ Gen.eqv (Flt.sum (Gen.triweighted_histogram a b E)) (Flt.lit 0) := fun h => hne ((eqv_iff hS (Tr.lit (0:ℝ))).1 h)
  have hw := fun i => (hk i).div (Tr.sel_neg hz (Tr.lit 1) hS) hne
  set W : Fin (n + 1) → α := fun i => Gen.triweighted_histogram a b E i / Flt.sel (Gen.eqv (Flt.sum (Gen.triweighted_histogram a b E)) (Flt.lit 0))
    (Flt.lit 1) (Flt.sum (Gen.triweighted_histogram a b E)) with hW
  have hnz : ¬ ∀ i, Gen.eqv (W i) (Flt.lit 0) := by
    intro h
    refine hne (Finset.sum_eq_zero fun i _ => ?_)
    have := (eqv_iff (hw i) (Tr.lit (0:ℝ))).1 (h i)
    rwa [div_eq_zero_iff, or_iff_left hne] at this
  show Tr (Flt.sel ((∀ i, Gen.eqv (W i) (Flt.lit 0)) ∧ Gen.lt (E (Fin.last (n + 1))) a) _
    (Flt.sel ((∀ i, Gen.eqv (W i) (Flt.lit 0)) ∧ Gen.lt a (E 0)) _ (W i))) _ θ
  refine (Tr.sel_neg (fun h => hnz h.1) (tr_oneHot (Fin.last n) i) (Tr.sel_neg (fun h => hnz h.1) (tr_oneHot 0 i) (hw i))).congr ?_
  filter_upwards [hS.cont.eventually_ne hne] with y hy
  exact Props.triweights_of_sum_ne _ _ _ hy i

/-- where the weights are one-hot near `θ` because the kernel misses the grid -/
theorem tr_triweights_far {a b : α} {x sig : (ι → ℝ) → ℝ} {E : Fin (n + 2) → α} {e : (ι → ℝ) → Fin (n + 2) → ℝ} (ha : Tr a x θ)
    (hb : Tr b sig θ) (he : TrV E e θ) (hpos : 0 < sig θ) (hmono : StrictMono (e θ)) (hj : OffJoins (x θ) (sig θ) (e θ))
    (hfar : x θ + 3 * sig θ < e θ 0 ∨ e θ (Fin.last (n + 1)) < x θ - 3 * sig θ) (i : Fin (n + 1)) :
    Tr (Gen.get_lgmet_weights_singlegal a b E i) (fun θ => Utils.get_triweights_singlepoint (x θ) (sig θ) (e θ) i) θ := by
  have hk := tr_hist ha hb he hpos hj
  set H : (ι → ℝ) → Fin (n + 1) → ℝ := fun θ => Utils.triweighted_histogram (x θ) (sig θ) (e θ) with hH
  have hS : Tr _ (fun θ => Jnp.sum (H θ)) θ := Tr.sum hk
  have h0 : ∀ i, H θ i = 0 := fun i => Props.C03_far_bin_zero (x θ) (sig θ) hpos (e θ) hmono.monotone i (by
    rcases hfar with h | h
    · exact Or.inr (by have := hmono.monotone (Fin.zero_le i.castSucc); linarith)
    · exact Or.inl (by have := hmono.monotone (Fin.le_last i.succ); linarith))
  have hs0 : Jnp.sum (H θ) = 0 := Finset.sum_eq_zero fun i _ => h0 i
  have hz : Gen.eqv (Flt.sum (Gen.triweighted_histogram a b E)) (Flt.lit 0) := (eqv_iff hS (Tr.lit (0:ℝ))).2 hs0
  have hw := fun i => (hk i).div (Tr.sel_pos hz (Tr.lit 1) hS) one_ne_zero
  set W : Fin (n + 1) → α := fun i => Gen.triweighted_histogram a b E i / Flt.sel (Gen.eqv (Flt.sum (Gen.triweighted_histogram a b E)) (Flt.lit 0))
    (Flt.lit 1) (Flt.sum (Gen.triweighted_histogram a b E)) with hW
  have hall : ∀ i, Gen.eqv (W i) (Flt.lit 0) := fun i => (eqv_iff (hw i) (Tr.lit (0:ℝ))).2 (by show H θ i / 1 = 0; rw [h0 i, zero_div])
  have hmy : ∀ᶠ y in 𝓝 θ, StrictMono (e y) := by
    have : ∀ᶠ y in 𝓝 θ, ∀ i : Fin (n + 1), e y i.castSucc < e y i.succ :=
      Filter.eventually_all.2 fun i => (he i.castSucc).cont.eventually_lt (he i.succ).cont (hmono i.castSucc_lt_succ)
    exact this.mono fun y hy => Fin.strictMono_iff_lt_succ.2 hy
  have hsy : ∀ᶠ y in 𝓝 θ, 0 < sig y := hb.cont.eventually_const_lt hpos
  show Tr (Flt.sel ((∀ i, Gen.eqv (W i) (Flt.lit 0)) ∧ Gen.lt (E (Fin.last (n + 1))) a) _
    (Flt.sel ((∀ i, Gen.eqv (W i) (Flt.lit 0)) ∧ Gen.lt a (E 0)) _ (W i))) _ θ
  rcases hfar with h | h
  · have hc1 : Gen.lt a (E 0) := (lt_iff ha (he 0)).2 (by linarith)
    have hc2 : ¬ Gen.lt (E (Fin.last (n + 1))) a := fun h' => by
      have := (lt_iff (he (Fin.last (n + 1))) ha).1 h'
      have := hmono.monotone (Fin.zero_le (Fin.last (n + 1)))
      linarith
    refine (Tr.sel_neg (fun h => hc2 h.2) (tr_oneHot (Fin.last n) i) (Tr.sel_pos ⟨hall, hc1⟩ (tr_oneHot 0 i) (hw i))).congr ?_
    filter_upwards [hmy, hsy, (ha.cont.add (hb.cont.const_mul 3)).eventually_lt (he 0).cont h] with y h1 h2 h3
    rw [(Props.C04_triweights_outside _ _ h2 _ h1.monotone (h1 Fin.last_pos)).1 (le_of_lt h3)]
  · have hc2 : Gen.lt (E (Fin.last (n + 1))) a := (lt_iff (he (Fin.last (n + 1))) ha).2 (by linarith)
    have hc1 : ¬ Gen.lt a (E 0) := fun h' => by
      have := (lt_iff ha (he 0)).1 h'
      have := hmono.monotone (Fin.zero_le (Fin.last (n + 1)))
      linarith
    refine (Tr.sel_pos ⟨hall, hc2⟩ (tr_oneHot (Fin.last n) i) (Tr.sel_neg (fun h => hc1 h.2) (tr_oneHot 0 i) (hw i))).congr ?_
    filter_upwards [hmy, hsy, (he (Fin.last (n + 1))).cont.eventually_lt (ha.cont.sub (hb.cont.const_mul 3)) h] with y h1 h2 h3
    rw [(Props.C04_triweights_outside _ _ h2 _ h1.monotone (h1 Fin.last_pos)).2 (le_of_lt h3)]

theorem tr_triweights {a b : α} {x sig : (ι → ℝ) → ℝ} {E : Fin (n + 2) → α} {e : (ι → ℝ) → Fin (n + 2) → ℝ} (ha : Tr a x θ)
    (hb : Tr b sig θ) (he : TrV E e θ) (hpos : 0 < sig θ) (hmono : StrictMono (e θ)) (hj : OffJoins (x θ) (sig θ) (e θ)) (i : Fin (n + 1)) :
    Tr (Gen.get_lgmet_weights_singlegal a b E i) (fun θ => Utils.get_triweights_singlepoint (x θ) (sig θ) (e θ) i) θ := by
  by_cases hlo : e θ 0 - 3 * sig θ < x θ
  · by_cases hhi : x θ < e θ (Fin.last (n + 1)) + 3 * sig θ
    · exact tr_triweights_overlap ha hb he hpos hmono hj hlo hhi i
    refine tr_triweights_far ha hb he hpos hmono hj (Or.inr (lt_of_le_of_ne (by linarith) fun h => hj (Fin.last _) ?_)) i
    rw [show x θ - e θ (Fin.last (n + 1)) = 3 * sig θ by linarith, abs_of_pos (by linarith)]
  · refine tr_triweights_far ha hb he hpos hmono hj (Or.inl (lt_of_le_of_ne (by linarith) fun h => hj 0 ?_)) i
    rw [show x θ - e θ 0 = -(3 * sig θ) by linarith, abs_neg, abs_of_pos (by linarith)]

/-! ### interpolation on a fixed grid -/

theorem tr_interpLR [Jnp.Dtype] {c l r : α} {u : ℝ} {v z : (ι → ℝ) → ℝ} {a b : Fin (n + 2) → α}
    {xp : Fin (n + 2) → ℝ} {fp : (ι → ℝ) → Fin (n + 2) → ℝ} (hc : Tr c (fun _ => u) θ) (ha : TrV a (fun _ => xp) θ) (hb : TrV b fp θ)
    (hl : Tr l v θ) (hr : Tr r z θ) :
    Tr (Gen.interpLR c a b l r) (fun θ => Jnp.interpLR u xp (fp θ) (v θ) (z θ)) θ := by
  classical
  have hcell : Gen.interpCell a c = Jnp.interpCell xp u := cell_eq ha.rep hc.rep
  unfold Gen.interpLR
  simp only
  rw [hcell]
  set i := Jnp.interpCell xp u with hi
  have tf : ∀ j, Tr (Flt.take b j) (fun θ => fp θ j) θ := fun j => Tr.take hb j
  have tx : ∀ j, Tr (Flt.take a j) (fun _ => xp j) θ := fun j => Tr.take (F := fun j _ => xp j) ha j
  have hdx := (tx i.succ).sub (tx i.castSucc)
  have hg : XFSed.abs (Flt.value (Flt.take a i.succ - Flt.take a i.castSucc)) ≤ XF.fin Jnp.Dtype.interpEps ↔
      |xp i.succ - xp i.castSucc| ≤ Jnp.Dtype.interpEps := (rep_abs hdx.rep).le_iff (Rep.fin _)
  set g : Prop := XFSed.abs (Flt.value (Flt.take a i.succ - Flt.take a i.castSucc)) ≤ XF.fin Jnp.Dtype.interpEps with hgdef
  have hlt0 : Gen.lt c (a 0) ↔ u < xp 0 := lt_iff hc (ha 0)
  have hgt1 : Gen.lt (a (Fin.last (n + 1))) c ↔ xp (Fin.last (n + 1)) < u := lt_iff (ha _) hc
  let D : ℝ := if g then 1 else xp i.succ - xp i.castSucc
  have hD : Tr (Flt.sel g (Flt.lit 1) (Flt.take a i.succ - Flt.take a i.castSucc)) (fun _ : ι → ℝ => D) θ := by
    by_cases h : g
    · exact (Tr.sel_pos h (Tr.lit 1) hdx).of_eq (by funext y; exact (if_pos h).symm)
    · exact (Tr.sel_neg h (Tr.lit 1) hdx).of_eq (by funext y; exact (if_neg h).symm)
  have hD0 : D ≠ 0 := by
    show (if g then 1 else xp i.succ - xp i.castSucc) ≠ 0
    split_ifs with h
    · norm_num
    · intro h0; rw [hg, h0, abs_zero] at h; exact h Jnp.Dtype.interpEps_nonneg
  have hbody := (tf i.castSucc).add (((hc.sub (tx i.castSucc)).div hD hD0).mul ((tf i.succ).sub (tf i.castSucc)))
  set B := Flt.take b i.castSucc + (c - Flt.take a i.castSucc) / Flt.sel g (Flt.lit 1) (Flt.take a i.succ - Flt.take a i.castSucc) * (Flt.take b i.succ - Flt.take b i.castSucc) with hB
  have hf : Tr (Flt.sel g (Flt.take b i.castSucc) B) (fun θ => if g then fp θ i.castSucc else
      fp θ i.castSucc + (u - xp i.castSucc) / (xp i.succ - xp i.castSucc) * (fp θ i.succ - fp θ i.castSucc)) θ := by
    by_cases h : g
    · exact (Tr.sel_pos h (tf i.castSucc) hbody).of_eq (by funext y; exact (if_pos h).symm)
    · exact (Tr.sel_neg h (tf i.castSucc) hbody).of_eq (by funext y; simp only [D, if_neg h])
  have hin : Tr (Flt.sel (Gen.lt c (a 0)) l (Flt.sel g (Flt.take b i.castSucc) B)) (fun y => if u < xp 0 then v y else if g then fp y i.castSucc else
      fp y i.castSucc + (u - xp i.castSucc) / (xp i.succ - xp i.castSucc) * (fp y i.succ - fp y i.castSucc)) θ := by
    by_cases h : u < xp 0
    · exact (Tr.sel_pos (hlt0.2 h) hl hf).of_eq (by funext y; exact (if_pos h).symm)
    · exact (Tr.sel_neg (fun h' => h (hlt0.1 h')) hl hf).of_eq (by funext y; rw [if_neg h])
  by_cases h : xp (Fin.last (n + 1)) < u
  · exact (Tr.sel_pos (hgt1.2 h) hr hin).of_eq (by funext y; exact (Jnp.interp_of_gt h).symm)
  · refine (Tr.sel_neg (fun h' => h (hgt1.1 h')) hr hin).of_eq ?_
    funext y
    unfold Jnp.interpLR Jnp.interpBody
    rw [if_neg (show ¬ u > Jnp.last xp from h)]
    simp only [hg, ← hi]

theorem tr_interp [Jnp.Dtype] {c : α} {u : ℝ} {a b : Fin (n + 2) → α} {xp : Fin (n + 2) → ℝ} {fp : (ι → ℝ) → Fin (n + 2) → ℝ} (hc : Tr c (fun _ => u) θ)
    (ha : TrV a (fun _ => xp) θ) (hb : TrV b fp θ) : Tr (Gen.interp c a b) (fun θ => Jnp.interp u xp (fp θ)) θ := tr_interpLR hc ha hb (hb 0) (hb _)

/-! ### the SED -/

theorem tr_lgt_birth {a b : α} {T g : ℝ} (ha : Tr a (fun _ => T) θ) (hb : Tr b (fun _ => g) θ) :
    Tr (Gen.get_lgt_birth a b) (fun _ : ι → ℝ => StellarAgeWeights.get_lgt_birth T g) θ := by
  have hd := ha.sub hb.exp10
  have hlt : Gen.lt (a - Flt.exp10 b) (Flt.lit T_BIRTH_MIN) ↔ T - Jnp.exp10 g < T_BIRTH_MIN := lt_iff hd (Tr.lit T_BIRTH_MIN)
  have hsel : Tr (Flt.sel (Gen.lt (a - Flt.exp10 b) (Flt.lit T_BIRTH_MIN)) (Flt.lit T_BIRTH_MIN) (a - Flt.exp10 b))
      (fun _ : ι → ℝ => if T - Jnp.exp10 g < T_BIRTH_MIN then T_BIRTH_MIN else T - Jnp.exp10 g) θ := by
    by_cases h : T - Jnp.exp10 g < T_BIRTH_MIN
    · exact (Tr.sel_pos (hlt.2 h) (Tr.lit _) hd).of_eq (by funext y; exact (if_pos h).symm)
    · exact (Tr.sel_neg (fun h' => h (hlt.1 h')) (Tr.lit _) hd).of_eq (by funext y; exact (if_neg h).symm)
  refine hsel.log10 ?_
  split_ifs with h
  · norm_num [T_BIRTH_MIN]
  · exact lt_of_lt_of_le (by norm_num [T_BIRTH_MIN]) (not_lt.1 h)

theorem TrV.logsm {t : Fin (n + 1) → ℝ} {S : (ι → ℝ) → Fin (n + 1) → ℝ} {c : ℝ} {a b : Fin (n + 1) → α} {d : α} (ha : TrV a (fun _ => t) θ)
    (hb : TrV b S θ) (hd : Tr d (fun _ => c) θ) (ht : StrictMono t) (h0 : 0.001 < t 0) (hc : 0 < c) (hne : ∀ i, S θ i ≠ c) :
    TrV (Gen.calc_logsm_table_from_sfh_table a b d) (fun θ => StellarAgeWeights.calc_logsm_table_from_sfh_table t (S θ) c) θ := by
  have hfl : TrV (fun i => Flt.sel (Gen.lt (b i) d) d (b i)) (fun θ i => if S θ i < c then c else S θ i) θ := by
    intro i
    have hlt : Gen.lt (b i) d ↔ S θ i < c := lt_iff (hb i) hd
    rcases lt_or_gt_of_ne (hne i) with h | h
    · refine (Tr.sel_pos (hlt.2 h) hd (hb i)).congr ?_
      filter_upwards [(hb i).cont.eventually_lt_const h] with y hy
      exact if_pos hy
    · refine (Tr.sel_neg (fun h' => lt_asymm h (hlt.1 h')) hd (hb i)).congr ?_
      filter_upwards [(hb i).cont.eventually_const_lt h] with y hy
      exact if_neg (not_lt.2 (le_of_lt hy))
  intro i
  refine ((ha.mstar hfl) i).log10 ?_
  show 0 < Utils.cumulative_mstar_formed t (fun i => if S θ i < c then c else S θ i) i
  rw [floor_eq]
  exact (Props.C12_mstar_pos_strictMono t _ ht h0 fun i => lt_max_of_lt_left hc).1 i

theorem TrV.lgt {t : Fin (n + 1) → ℝ} {a : Fin (n + 1) → α} (ha : TrV a (fun _ => t) θ) (ht : StrictMono t) (h0 : 0.001 < t 0) :
    TrV (fun i => Flt.log10 (a i)) (fun _ i => Jnp.log10 (t i)) θ := fun i => (ha i).log10 (table_pos ht h0 i)

theorem TrV.age_weights [Jnp.Dtype] {t : Fin (n + 2) → ℝ} {S : (ι → ℝ) → Fin (n + 2) → ℝ} {A : Fin (m + 3) → ℝ} {T c : ℝ}
    {t' S' : Fin (n + 2) → α} {A' : Fin (m + 3) → α} {T' c' : α} (ht' : TrV t' (fun _ => t) θ) (hS : TrV S' S θ) (hA : TrV A' (fun _ => A) θ)
    (hT : Tr T' (fun _ => T) θ) (hc : Tr c' (fun _ => c) θ) (ht : StrictMono t) (h0 : 0.001 < t 0) (hc0 : 0 < c) (hk : ∀ i, S θ i ≠ c)
    (hne : massFormed t (S θ) c (birthTime T (StellarAgeWeights.get_lg_age_bin_edges A 0)) ≠
      massFormed t (S θ) c (birthTime T (StellarAgeWeights.get_lg_age_bin_edges A (Fin.last (m + 3))))) :
    TrV (Gen.calc_age_weights_from_sfh_table t' S' A' T' c') (fun θ => StellarAgeWeights.calc_age_weights_from_sfh_table t (S θ) A T c) θ := by
  have hls := ht'.logsm hS hc ht h0 hc0 hk
  have hI := fun e => tr_interp (tr_lgt_birth hT (hA.lg_age_edges e)) (ht'.lgt ht h0) hls
  have hE : TrV _ _ θ := fun e => (hI e).exp10
  have hD := fun i => (hE.diff i).neg
  have hsum := Tr.sum hD
  refine fun i => (hD i).div hsum ?_
  have := sum_deltaMass t (S θ) A T c
  have e : (fun i => -Jnp.diff (fun i => Jnp.exp10 (Jnp.interp (StellarAgeWeights.get_lgt_birth T (StellarAgeWeights.get_lg_age_bin_edges A i))
      (fun i => Jnp.log10 (t i)) (StellarAgeWeights.calc_logsm_table_from_sfh_table t (S θ) c))) i) = deltaMass t (S θ) A T c := by
    funext i
    unfold deltaMass
    rw [massFormed_eq, massFormed_eq, ← get_lgt_birth_eq, ← get_lgt_birth_eq]
    unfold Jnp.diff
    rw [neg_sub]; rfl
  rw [e, this]
  exact sub_ne_zero.2 hne

theorem TrV.lgmet_lognormal {x sig : (ι → ℝ) → ℝ} {z : (ι → ℝ) → Fin (k + 3) → ℝ} {x' sig' : α} {z' : Fin (k + 3) → α}
    (hx : Tr x' x θ) (hsig : Tr sig' sig θ) (hz : TrV z' z θ) (hpos : 0 < sig θ)
    (hmono : StrictMono (Utils.get_bin_edges (z θ) LGMET_LO LGMET_HI)) (hj : OffJoins (x θ) (sig θ) (Utils.get_bin_edges (z θ) LGMET_LO LGMET_HI)) :
    TrV (Gen.calc_lgmet_weights_from_lognormal_mdf x' sig' z') (fun θ => MetallicityWeights.calc_lgmet_weights_from_lognormal_mdf (x θ) (sig θ) (z θ)) θ :=
  fun i => tr_triweights hx hsig (hz.edges (Tr.lit _) (Tr.lit _)) hpos hmono hj i

theorem tr_lgmet_table [Jnp.Dtype] {t : Fin (n + 2) → ℝ} {f : (ι → ℝ) → Fin (n + 2) → ℝ} {sig : (ι → ℝ) → ℝ} {T : ℝ} {z : (ι → ℝ) → Fin (k + 3) → ℝ}
    {A : Fin (m + 1) → ℝ} {t' f' : Fin (n + 2) → α} {sig' T' : α} {z' : Fin (k + 3) → α} {A' : Fin (m + 1) → α}
    (ht' : TrV t' (fun _ => t) θ) (hf : TrV f' f θ) (hsig : Tr sig' sig θ) (hz : TrV z' z θ) (hA : TrV A' (fun _ => A) θ) (hT : Tr T' (fun _ => T) θ)
    (hpos : 0 < sig θ) (hmono : StrictMono (Utils.get_bin_edges (z θ) LGMET_LO LGMET_HI)) (ht : StrictMono t) (h0 : 0.001 < t 0)
    (j : Fin (m + 1)) (hj : OffJoins (Jnp.interp (StellarAgeWeights.get_lgt_birth T (A j)) (fun i => Jnp.log10 (t i)) (f θ)) (sig θ) (Utils.get_bin_edges (z θ) LGMET_LO LGMET_HI)) (i : Fin (k + 3)) :
    Tr (Gen.calc_lgmet_weights_from_lgmet_table t' f' sig' z' A' T' i j)
      (fun θ => MetallicityWeights.calc_lgmet_weights_from_lgmet_table t (f θ) (sig θ) (z θ) A T i j) θ := by
  have hI := tr_interp (tr_lgt_birth hT (hA j)) (ht'.lgt ht h0) hf
  have hm : ((m + 1 : ℕ) : ℝ) ≠ 0 := by positivity
  have he : TrV (Gen.get_bin_edges z' (Flt.lit LGMET_LO) (Flt.lit LGMET_HI)) (fun θ => Utils.get_bin_edges (z θ) LGMET_LO LGMET_HI) θ :=
    hz.edges (Tr.lit _) (Tr.lit _)
  have h2 := (tr_triweights hI hsig he hpos hmono hj i).div (Tr.lit ((m + 1 : ℕ) : ℝ)) hm
  rw [Gen.lgmet_table_apply]
  exact h2

theorem tr_sum2 {a b : ℕ} {X : Fin a → Fin b → α} {f : (ι → ℝ) → Fin a → Fin b → ℝ} (h : ∀ i j, Tr (X i j) (fun θ => f θ i j) θ) :
    Tr (Gen.sum2 X) (fun θ => SspWeights.sum2 (f θ)) θ := Tr.sum fun i => Tr.sum fun j => h i j

theorem tr_ssp_weights {a b : ℕ} {L : Fin a → Fin b → α} {B : Fin b → α} {l : (ι → ℝ) → Fin a → Fin b → ℝ}
    {x : (ι → ℝ) → Fin b → ℝ} (hL : ∀ i j, Tr (L i j) (fun θ => l θ i j) θ) (hB : TrV B x θ)
    (h0 : SspWeights.sum2 (fun i j => l θ i j * x θ j) ≠ 0) (i : Fin a) (j : Fin b) :
    Tr (Gen.ssp_weights L B i j) (fun θ => l θ i j * x θ j / SspWeights.sum2 (fun i j => l θ i j * x θ j)) θ :=
  ((hL i j).mul (hB j)).div (tr_sum2 fun i j => (hL i j).mul (hB j)) h0

theorem tr_mstar_obs [Jnp.Dtype] {t : Fin (n + 2) → ℝ} {S : (ι → ℝ) → Fin (n + 2) → ℝ} {T c : ℝ}
    {t' S' : Fin (n + 2) → α} {T' c' : α} (ht' : TrV t' (fun _ => t) θ) (hS : TrV S' S θ)
    (hT : Tr T' (fun _ => T) θ) (hc : Tr c' (fun _ => c) θ) (ht : StrictMono t) (h0 : 0.001 < t 0) (hc0 : 0 < c) (hT0 : 0 < T) (hk : ∀ i, S θ i ≠ c) :
    Tr (Gen.mstar_obs t' S' T' c') (fun θ => SspWeights.mstar_obs t (S θ) T c) θ :=
  (tr_interp (hT.log10 hT0) (ht'.lgt ht h0) (ht'.logsm hS hc ht h0 hc0 hk)).exp10

/-! ### dust -/

theorem tr_transmission {k' a' fl : α} {κ av fl0 : (ι → ℝ) → ℝ} (hk : Tr k' κ θ) (ha : Tr a' av θ) (hf : Tr fl fl0 θ) (h0 : ∀ᶠ y in 𝓝 θ, 0 ≤ av y * κ y) :
    Tr (Gen.frac_transmission_from_k_lambda k' a' fl) (fun θ => Dust.frac_transmission_from_k_lambda (κ θ) (av θ) (fl0 θ)) θ := by
  have hR : (Dust.RV_C00 : ℝ) ≠ 0 := by norm_num [Dust.RV_C00]
  have hRp : (0 : ℝ) < Dust.RV_C00 := by norm_num [Dust.RV_C00]
  have hA := (ha.mul hk).div (Tr.lit Dust.RV_C00) hR
  have hge : ∀ᶠ y in 𝓝 θ, ¬ av y * κ y / Dust.RV_C00 < 0 := h0.mono fun y hy => not_lt.2 (div_nonneg hy hRp.le)
  have hatt : Tr (Gen.att_curve_from_k_lambda k' a') (fun θ => Dust.att_curve_from_k_lambda (κ θ) (av θ)) θ := by
    refine (Tr.sel_neg (c := Gen.lt (a' * k' / Flt.lit Dust.RV_C00) (Flt.lit 0)) (fun h => hge.self_of_nhds ((lt_iff hA (Tr.lit (0:ℝ))).1 h)) (Tr.lit 0) hA).congr ?_
    filter_upwards [hge] with y hy
    exact if_neg hy
  exact (hf.add (((Tr.lit 1).sub hf).mul ((((Tr.lit 0.4).neg.mul hatt)).exp10))).of_eq (by
    funext y; unfold Dust.frac_transmission_from_k_lambda Jnp.exp10; simp only)

/-! ### cosmology -/

theorem tr_Ez {a b c d : α} {z O v u : (ι → ℝ) → ℝ} (ha : Tr a z θ) (hb : Tr b O θ) (hc : Tr c v θ) (hd : Tr d u θ) (hz : -1 < z θ) (hO : PhysicalOm (O θ)) :
    Tr (Gen.Ez a b c d) (fun θ => FlatWcdm.Ez (z θ) (O θ) (v θ) (u θ)) θ := by
  have h1 : Tr (Flt.lit 1.0 : α) (fun _ : ι → ℝ => (1.0:ℝ)) θ := Tr.lit _
  have h3 : Tr (-(Flt.lit 3.0) : α) (fun _ : ι → ℝ => -(3.0:ℝ)) θ := (Tr.lit (3.0:ℝ)).neg
  have hpos : (0:ℝ) < 1.0 + z θ := by norm_num; linarith
  have hzp := h1.add ha
  have hA := h1.div hzp hpos.ne'
  have hApos : (0:ℝ) < 1.0 / (1.0 + z θ) := by positivity
  have hde := (hA.pow (h3.mul ((h1.add hc).add hd)) hApos).mul (((h3.mul hd).mul (h1.sub hA)).exp)
  have ht := (hb.mul (hzp.ipow 3)).add ((h1.sub hb).mul hde)
  refine ht.sqrt ?_
  have h := Ez_pos hz hO (v θ) (u θ)
  unfold FlatWcdm.Ez at h
  simp only at h
  exact Real.sqrt_pos.1 h

theorem TrV.linspace {a b : α} {x y : (ι → ℝ) → ℝ} (ha : Tr a x θ) (hb : Tr b y θ) (n : ℕ) : TrV (Gen.linspace a b n) (fun θ => Jnp.linspace (x θ) (y θ) n) θ := by
  intro i
  unfold Gen.linspace Jnp.linspace
  by_cases h : i = Fin.last (n + 1)
  · simp only [if_pos h]; exact hb
  · simp only [if_neg h]
    have hs : Tr (Flt.lit ((i : ℕ) : ℝ) / Flt.lit ((n : ℝ) + 1) : α) (fun _ : ι → ℝ => ((i : ℕ) : ℝ) / ((n : ℝ) + 1)) θ := (Tr.lit ((i : ℕ) : ℝ)).div (Tr.lit ((n : ℝ) + 1)) (by positivity)
    exact (ha.mul ((Tr.lit 1).sub hs)).add (hb.mul hs)

section cosmo
variable {a b c d e : α} {z O v u h : (ι → ℝ) → ℝ} (ha : Tr a z θ) (hb : Tr b O θ) (hc : Tr c v θ)
    (hd : Tr d u θ) (he : Tr e h θ) (hz : -1 < z θ) (hO : PhysicalOm (O θ)) (hh : h θ ≠ 0)
include ha hb hc hd he hz hO hh

theorem tr_comoving : Tr (Gen.comoving_distance_to_z a b c d e) (fun θ => FlatWcdm.comoving_distance_to_z (z θ) (O θ) (v θ) (u θ) (h θ)) θ := by
  have hl := TrV.linspace (Tr.lit (0:ℝ)) ha 254
  have hint : TrV _ (fun θ i => FlatWcdm.integrand_oneOverEz (Jnp.linspace 0 (z θ) 254 i) (O θ) (v θ) (u θ)) θ := fun i =>
    (Tr.lit 1).div (tr_Ez (hl i) hb hc hd (Props.linspace_gt hz 254 i) hO) (Ez_pos (Props.linspace_gt hz 254 i) hO _ _).ne'
  exact (((hl.trapz hint).mul (Tr.lit FlatWcdm.C_SPEED)).mul (Tr.lit 1e-5)).div he hh

theorem tr_lumdist : Tr (Gen.luminosity_distance_to_z a b c d e) (fun θ => FlatWcdm.luminosity_distance_to_z (z θ) (O θ) (v θ) (u θ) (h θ)) θ :=
  (tr_comoving ha hb hc hd he hz hO hh).mul ((Tr.lit 1).add ha)

theorem tr_angdist : Tr (Gen.angular_diameter_distance_to_z a b c d e) (fun θ => FlatWcdm.angular_diameter_distance_to_z (z θ) (O θ) (v θ) (u θ) (h θ)) θ :=
  (tr_comoving ha hb hc hd he hz hO hh).div ((Tr.lit 1).add ha) (by show (1:ℝ) + z θ ≠ 0; linarith)

omit hz hh in
theorem tr_dmod (hz : 0 < z θ) (hh : 0 < h θ) : Tr (Gen.distance_modulus_to_z a b c d e)
    (fun θ => FlatWcdm.distance_modulus_to_z (z θ) (O θ) (v θ) (u θ) (h θ)) θ := by
  have hz' : -1 < z θ := by linarith
  refine (Tr.lit 5.0).mul (((tr_lumdist ha hb hc hd he hz' hO hh.ne').mul (Tr.lit 1e5)).log10 ?_)
  exact mul_pos ((Props.lumdist_sign hz' hO _ _ hh).1 hz) (by norm_num)

theorem tr_hubble_time : Tr (Gen.hubble_time a b c d e) (fun θ => FlatWcdm.hubble_time (z θ) (O θ) (v θ) (u θ) (h θ)) θ :=
  ((Tr.lit (1e-16 * FlatWcdm.MPC / FlatWcdm.YEAR)).div he hh).div (tr_Ez ha hb hc hd hz hO) (Ez_pos hz hO _ _).ne'

theorem tr_lookback : Tr (Gen.lookback_to_z a b c d e) (fun θ => FlatWcdm.lookback_to_z (z θ) (O θ) (v θ) (u θ) (h θ)) θ := by
  have hl := TrV.linspace (Tr.lit (0:ℝ)) ha 510
  have hint : TrV _ (fun θ i => 1 / FlatWcdm.Ez (Jnp.linspace 0 (z θ) 510 i) (O θ) (v θ) (u θ) / (1 + Jnp.linspace 0 (z θ) 510 i)) θ := fun i =>
    ((Tr.lit 1).div (tr_Ez (hl i) hb hc hd (Props.linspace_gt hz 510 i) hO) (Ez_pos (Props.linspace_gt hz 510 i) hO _ _).ne').div
      ((Tr.lit 1).add (hl i)) (by have := Props.linspace_gt hz 510 i; show (1:ℝ) + Jnp.linspace 0 (z θ) 510 i ≠ 0; linarith)
  exact (tr_hubble_time (Tr.lit (0.0:ℝ)) hb hc hd he (by norm_num) hO hh).mul (hl.trapz hint)

omit ha hz in
theorem tr_age0 : Tr (Gen.age_at_z0 b c d e) (fun θ => FlatWcdm.age_at_z0 (O θ) (v θ) (u θ) (h θ)) θ := by
  have hz : ∀ i : Fin 512, -1 < Jnp.logspace 0 3 510 i - 1.0 := fun i => by
    have : 0 < Jnp.logspace 0 3 510 i := Real.rpow_pos_of_pos (by norm_num) _
    norm_num; linarith
  have hl : TrV (fun i => (Flt.lit (Jnp.logspace 0 3 510 i - 1.0) : α)) (fun _ i => Jnp.logspace 0 3 510 i - 1.0) θ := fun i => Tr.lit _
  have hint : TrV _ (fun θ i => 1 / FlatWcdm.Ez (Jnp.logspace 0 3 510 i - 1.0) (O θ) (v θ) (u θ) / (1 + (Jnp.logspace 0 3 510 i - 1.0))) θ := fun i =>
    ((Tr.lit 1).div (tr_Ez (hl i) hb hc hd (hz i) hO) (Ez_pos (hz i) hO _ _).ne').div
      ((Tr.lit 1).add (hl i)) (by have := hz i; show (1:ℝ) + (Jnp.logspace 0 3 510 i - 1.0) ≠ 0; linarith)
  exact (tr_hubble_time (Tr.lit (0.0:ℝ)) hb hc hd he (by norm_num) hO hh).mul (hl.trapz hint)

theorem tr_age : Tr (Gen.age_at_z_kern a b c d e) (fun θ => FlatWcdm.age_at_z_kern (z θ) (O θ) (v θ) (u θ) (h θ)) θ :=
  (tr_age0 hb hc hd he hO hh).sub (tr_lookback ha hb hc hd he hz hO hh)

end cosmo

/-! ### photometry: fixed wavelengths and redshift -/

theorem tr_flux [Jnp.Dtype] {W : Fin (n + 2) → ℝ} {L : (ι → ℝ) → Fin (n + 2) → ℝ} {fw ft : Fin (m + 1) → ℝ}
    {W' L' : Fin (n + 2) → α} {fw' ft' : Fin (m + 1) → α} (hW : TrV W' (fun _ => W) θ) (hL : TrV L' L θ) (hfw : TrV fw' (fun _ => fw) θ)
    (hft : TrV ft' (fun _ => ft) θ) (h0 : ∀ i, fw i ≠ 0) :
    Tr (Gen.rest_flux_ssp W' L' fw' ft') (fun θ => Photometry.rest_flux_ssp W (L θ) fw ft) θ :=
  hfw.trapz fun i => ((hft i).mul (tr_interpLR (hfw i) hW hL (Tr.lit 0) (Tr.lit 0))).div (hfw i) (h0 i)

theorem tr_ab0 {fw ft : Fin (m + 1) → ℝ} {fw' ft' : Fin (m + 1) → α} (hfw : TrV fw' (fun _ => fw) θ) (hft : TrV ft' (fun _ => ft) θ) (h0 : ∀ i, fw i ≠ 0) :
    Tr (Gen.flux_ab0_at_10pc fw' ft') (fun _ => Photometry.flux_ab0_at_10pc fw ft) θ := hfw.trapz fun i => ((hft i).mul (Tr.lit _)).div (hfw i) (h0 i)

theorem tr_calc_obs_mag [Jnp.Dtype] {W : Fin (n + 2) → ℝ} {L : (ι → ℝ) → Fin (n + 2) → ℝ} {fw ft : Fin (m + 1) → ℝ} {z : ℝ} {O v u h : (ι → ℝ) → ℝ}
    {W' L' : Fin (n + 2) → α} {fw' ft' : Fin (m + 1) → α} {a b c d e : α} (hW : TrV W' (fun _ => W) θ) (hL : TrV L' L θ) (hfw : TrV fw' (fun _ => fw) θ)
    (hft : TrV ft' (fun _ => ft) θ) (ha : Tr a (fun _ => z) θ) (hb : Tr b O θ) (hc : Tr c v θ) (hd : Tr d u θ) (he : Tr e h θ)
    (h0 : ∀ i, fw i ≠ 0) (hpos : 0 < Photometry.obs_flux_ssp W (L θ) fw ft z / Photometry.flux_ab0_at_10pc fw ft)
    (hz : 0 < z) (hO : PhysicalOm (O θ)) (hh : 0 < h θ) :
    Tr (Gen.calc_obs_mag W' L' fw' ft' a b c d e) (fun θ => Photometry.calc_obs_mag W (L θ) fw ft z (O θ) (v θ) (u θ) (h θ)) θ := by
  have hA : Photometry.flux_ab0_at_10pc fw ft ≠ 0 := fun h => by rw [h, div_zero] at hpos; exact lt_irrefl _ hpos
  have h2 := (tr_dmod ha hb hc hd he hO hz hh).sub ((Tr.lit 2.5).mul (((Tr.lit 1).add ha).log10 (by show (0:ℝ) < 1 + z; linarith)))
  have hflux : Tr (Gen.obs_flux_ssp W' L' fw' ft' a) (fun θ => Photometry.obs_flux_ssp W (L θ) fw ft z) θ :=
    tr_flux (W' := fun j => W' j * (Flt.lit 1 + a)) (fun j => (hW j).mul ((Tr.lit 1).add ha)) hL hfw hft h0
  exact (((Tr.lit 2.5).neg).mul ((hflux.div (tr_ab0 hfw hft h0) hA).log10 hpos)).add h2

/-! ### bursts -/

theorem tr_tw_gauss {a b c : α} {x u h : (ι → ℝ) → ℝ} (ha : Tr a x θ) (hb : Tr b u θ) (hc : Tr c h θ)
    (h0 : h θ ≠ 0) (hj : (x θ - u θ) / h θ ≠ -3 ∧ (x θ - u θ) / h θ ≠ 3) :
    Tr (Gen.triweight_gaussian a b c) (fun θ => Utils.triweight_gaussian (x θ) (u θ) (h θ)) θ := by
  have hz := (ha.sub hb).div hc h0
  set z : (ι → ℝ) → ℝ := fun θ => (x θ - u θ) / h θ with hzdef
  have hV : Tr _ (fun θ => twp (z θ) / h θ) θ := ((((Tr.lit 35).div (Tr.lit 96) (by norm_num)).mul
    (((Tr.lit 1).sub ((hz.div (Tr.lit 3) (by norm_num)).ipow 2)).ipow 3)).div hc h0)
  have e : (fun θ => Utils.triweight_gaussian (x θ) (u θ) (h θ)) = fun θ => (if z θ < -3 ∨ 3 < z θ then 0 else twp (z θ)) / h θ := by
    funext θ; rw [triweight_gaussian_eq]; rfl
  rw [e]
  have hmask : (Gen.lt ((a - b) / c) (-(Flt.lit 3)) ∨ Gen.lt (Flt.lit 3) ((a - b) / c)) ↔ (z θ < -3 ∨ 3 < z θ) :=
    or_congr (lt_iff hz (Tr.lit (3:ℝ)).neg) (lt_iff (Tr.lit (3:ℝ)) hz)
  unfold Gen.triweight_gaussian
  dsimp only
  by_cases hm : z θ < -3 ∨ 3 < z θ
  · refine (Tr.sel_pos (hmask.2 hm) (Tr.lit 0) hV).congr ?_
    rcases hm with hm | hm
    · filter_upwards [hz.cont.eventually_lt_const hm] with y hy
      rw [if_pos (Or.inl hy), zero_div]
    · filter_upwards [hz.cont.eventually_const_lt hm] with y hy
      rw [if_pos (Or.inr hy), zero_div]
  · refine (Tr.sel_neg (fun h => hm (hmask.1 h)) (Tr.lit 0) hV).congr ?_
    push Not at hm
    filter_upwards [hz.cont.eventually_const_lt (lt_of_le_of_ne hm.1 hj.1.symm), hz.cont.eventually_lt_const (lt_of_le_of_ne hm.2 hj.2)] with y h1 h2
    rw [if_neg]; push Not; exact ⟨le_of_lt h1, le_of_lt h2⟩

theorem TrV.pureburst {l : (ι → ℝ) → Fin n → ℝ} {p q : (ι → ℝ) → ℝ} {l' : Fin n → α} {p' q' : α} (hl : TrV l' l θ)
    (hp : Tr p' p θ) (hq : Tr q' q θ) (hpq : p θ < q θ) (hin : ∃ i, l θ i ∈ Props.BurstSupport (p θ) (q θ))
    (hj : ∀ i, l θ i ≠ q θ ∧ l θ i ≠ 2 * p θ - q θ) :
    TrV (Gen.pureburst_age_weights_from_params l' p' q') (fun θ => Diffburst.pureburst_age_weights_from_params (l θ) (p θ) (q θ)) θ := by
  have hmin := hp.sub (hq.sub hp)
  have hx0 := (Tr.lit (0.5:ℝ)).mul (hmin.add hq)
  have hh := (hq.sub hmin).div (Tr.lit 6) (by norm_num)
  have hh0 : (q θ - (p θ - (q θ - p θ))) / 6 ≠ 0 := by
    have : 0 < q θ - (p θ - (q θ - p θ)) := by linarith
    positivity
  have hg := fun j => tr_tw_gauss (hl j) hx0 hh hh0 (by
    constructor <;> intro h <;> rw [div_eq_iff hh0] at h
    · exact (hj j).2 (by norm_num at h; linarith)
    · exact (hj j).1 (by norm_num at h; linarith))
  set g : (ι → ℝ) → Fin n → ℝ := fun θ j => Utils.triweight_gaussian (l θ j) (0.5 * (p θ - (q θ - p θ) + q θ)) ((q θ - (p θ - (q θ - p θ))) / 6) with hgdef
  have hnn : ∀ i, 0 ≤ g θ i := by
    intro i
    by_cases hi : l θ i ∈ Props.BurstSupport (p θ) (q θ)
    · exact (Props.tw_burst_pos hpq hi).le
    · exact (Props.tw_burst_zero hpq hi).ge
  have hS : Tr _ (fun θ => Jnp.sum (g θ)) θ := Tr.sum hg
  have hle := le_iff hS (Tr.lit (0:ℝ))
  have hsum : 0 < Jnp.sum (g θ) := by
    obtain ⟨j, hj⟩ := hin
    exact Finset.sum_pos' (fun i _ => hnn i) ⟨j, Finset.mem_univ _, Props.tw_burst_pos hpq hj⟩
  have hN := (Tr.sel_neg (fun h => not_le.2 hsum (hle.1 h)) (Tr.lit 1) hS)
  intro i
  refine ((hg i).div hN hsum.ne').congr ?_
  filter_upwards [hS.cont.eventually_const_lt hsum] with y hy
  show g y i / (if Jnp.sum (g y) ≤ 0 then 1 else Jnp.sum (g y)) = _
  rw [if_neg (not_le.2 hy)]

theorem TrV.bursty {S a : (ι → ℝ) → Fin n → ℝ} {f p q : (ι → ℝ) → ℝ} {S' a' : Fin n → α} {f' p' q' : α} (hS : TrV S' S θ)
    (ha : TrV a' a θ) (hf : Tr f' f θ) (hp : Tr p' p θ) (hq : Tr q' q θ) (hpq : p θ < q θ) (hin : ∃ i, a θ i + 9 ∈ Props.BurstSupport (p θ) (q θ))
    (hj : ∀ i, a θ i + 9 ≠ q θ ∧ a θ i + 9 ≠ 2 * p θ - q θ) :
    TrV (Gen.calc_bursty_age_weights f' p' q' S' a') (fun θ => Diffburst.calc_bursty_age_weights ⟨f θ, p θ, q θ⟩ (S θ) (a θ)) θ := by
  have e9 : (9.0:ℝ) = 9 := by norm_num
  have hl : TrV (fun i => a' i + Flt.lit 9.0) (fun θ i => a θ i + 9.0) θ := fun i => (ha i).add (Tr.lit _)
  intro i
  exact (hf.exp10.mul (hl.pureburst hp hq hpq (by simp only [e9]; exact hin) (by simp only [e9]; exact hj) i)).add (((Tr.lit 1).sub hf.exp10).mul (hS i))

end Nested
