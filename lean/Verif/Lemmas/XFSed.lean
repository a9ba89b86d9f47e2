import Verif.Model.XFSed
import Verif.Lemmas.AgeWeights
import Verif.Props.NonFinite

/-! The float model of the SED part returns the numbers of the real-valued model as long as no division by zero or logarithm of a
non-positive number occurs. -/
namespace Dsps.Lemmas
open XF Dsps.XFSed Dsps.Constants

variable {n m k w : ℕ}

/-- entrywise `Rep` -/
def RepV {ι : Type} (a : ι → XF) (x : ι → ℝ) : Prop := ∀ i, Rep (a i) (x i)

theorem RepV.fin {ι : Type} (x : ι → ℝ) : RepV (fun i => XF.fin (x i)) x := fun i => Rep.fin _

theorem repV_setAt {a : Fin n → XF} {x : Fin n → ℝ} (h : RepV a x) (j : Fin n) {b : XF} {y : ℝ} (hb : Rep b y) :
    RepV (Jnp.setAt a j b) (Jnp.setAt x j y) := by
  intro i
  unfold Jnp.setAt
  by_cases hij : i = j
  · subst hij; rw [Function.update_self, Function.update_self]; exact hb
  · rw [Function.update_of_ne hij, Function.update_of_ne hij]; exact h i

theorem repV_setInit {a : Fin (n + 1) → XF} {x : Fin (n + 1) → ℝ} (h : RepV a x) {b : Fin n → XF} {y : Fin n → ℝ} (hb : RepV b y) :
    RepV (Jnp.setInit a b) (Jnp.setInit x y) := by
  intro i
  unfold Jnp.setInit
  induction i using Fin.lastCases with
  | last => simpa using h _
  | cast i => simpa using hb i

theorem repV_setTail {a : Fin (n + 1) → XF} {x : Fin (n + 1) → ℝ} (h : RepV a x) {b : Fin n → XF} {y : Fin n → ℝ} (hb : RepV b y) :
    RepV (Jnp.setTail a b) (Jnp.setTail x y) := by
  intro i
  unfold Jnp.setTail
  induction i using Fin.cases with
  | zero => simpa using h _
  | succ i => simpa using hb i

theorem repV_zeros (n : ℕ) : RepV (zeros n) (Jnp.zeros n) := fun _ => Rep.fin 0

theorem repV_tail {a : Fin (n + 1) → XF} {x : Fin (n + 1) → ℝ} (h : RepV a x) : RepV (Jnp.tail a) (Jnp.tail x) := fun i => h i.succ
theorem repV_init {a : Fin (n + 1) → XF} {x : Fin (n + 1) → ℝ} (h : RepV a x) : RepV (Jnp.init a) (Jnp.init x) := fun i => h i.castSucc
theorem repV_diff {a : Fin (n + 1) → XF} {x : Fin (n + 1) → ℝ} (h : RepV a x) : RepV (XFSed.diff a) (Jnp.diff x) :=
  fun i => (h _).sub (h _)

theorem repV_setInterior {a : Fin (n + 2) → XF} {x : Fin (n + 2) → ℝ} (h : RepV a x) {b : Fin n → XF} {y : Fin n → ℝ}
    (hb : RepV b y) : RepV (Jnp.setInterior a b) (Jnp.setInterior x y) :=
  repV_setTail h (repV_setInit (repV_tail h) hb)

theorem rep_two : Rep (2 : XF) 2 := Rep.fin 2
theorem rep_two' : Rep (2.0 : XF) 2.0 := Rep.fin _
theorem rep_half : Rep (0.5 : XF) 0.5 := Rep.fin _

theorem repV_dt {a : Fin (n + 3) → XF} {x : Fin (n + 3) → ℝ} (h : RepV a x) :
    RepV (XFSed.jax_get_dt_array a) (Utils.jax_get_dt_array x) := by
  unfold XFSed.jax_get_dt_array Utils.jax_get_dt_array
  have hm : RepV (fun i : Fin (n + 2) => (0.5 : XF) * (Jnp.init a i + Jnp.tail a i)) (fun i => 0.5 * (Jnp.init x i + Jnp.tail x i)) :=
    fun i => rep_half.mul ((h _).add (h _))
  have hd := repV_diff hm
  refine repV_setAt (repV_setAt (repV_setInterior (repV_zeros _) hd) _ ?_) _ ?_
  · exact (hm 0).sub ((h 0).sub (((h 1).sub (h 0)).div rep_two (by norm_num)))
  · exact ((h _).add ((hd _).div rep_two (by norm_num))).sub (hm _)

theorem repV_edges {a : Fin (n + 3) → XF} {x : Fin (n + 3) → ℝ} (h : RepV a x) {l r : XF} {u v : ℝ} (hl : Rep l u) (hr : Rep r v) :
    RepV (XFSed.get_bin_edges a l r) (Utils.get_bin_edges x u v) := by
  unfold XFSed.get_bin_edges Utils.get_bin_edges
  exact repV_setAt (repV_setAt (repV_setInit (repV_zeros _) fun i => (h i).sub ((repV_dt h i).div rep_two (by norm_num))) _ hl) _ hr

theorem repV_lg_age_edges {a : Fin (m + 3) → XF} {x : Fin (m + 3) → ℝ} (h : RepV a x) :
    RepV (XFSed.get_lg_age_bin_edges a) (StellarAgeWeights.get_lg_age_bin_edges x) := by
  unfold XFSed.get_lg_age_bin_edges StellarAgeWeights.get_lg_age_bin_edges
  refine repV_setAt (repV_setAt (repV_setInit (repV_zeros _) fun i => (h i).sub ((repV_dt h i).div rep_two (by norm_num))) _ ?_) _ ?_
  · exact (h 0).sub (((h 1).sub (h 0)).div rep_two (by norm_num))
  · exact (h _).add ((repV_dt h _).div rep_two (by norm_num))

/-- related inputs of a scan give related outputs -/
theorem scan_rel {σ σ' β β' γ γ' : Type} {f : σ → β → σ × γ} {f' : σ' → β' → σ' × γ'} (S : σ → σ' → Prop) (B : β → β' → Prop)
    (G : γ → γ' → Prop) (hf : ∀ s s' b b', S s s' → B b b' → S (f s b).1 (f' s' b').1 ∧ G (f s b).2 (f' s' b').2) :
    ∀ {n : ℕ} (s : σ) (s' : σ') (xs : Fin n → β) (xs' : Fin n → β'), S s s' → (∀ i, B (xs i) (xs' i)) →
      ∀ i, G ((Jnp.scan f s xs).2 i) ((Jnp.scan f' s' xs').2 i)
  | 0, _, _, _, _, _, _ => fun i => i.elim0
  | n + 1, s, s', xs, xs', hs, hx => by
    intro i
    have h0 := hf s s' _ _ hs (hx 0)
    have ih := scan_rel S B G hf (f s (xs 0)).1 (f' s' (xs' 0)).1 (fun i => xs i.succ) (fun i => xs' i.succ) h0.1
      (fun i => hx i.succ)
    unfold Jnp.scan
    simp only
    induction i using Fin.cases with
    | zero => simpa using h0.2
    | succ i => simpa using ih i

theorem repV_cumtrapz {a b : Fin (n + 1) → XF} {x y : Fin (n + 1) → ℝ} (ha : RepV a x) (hb : RepV b y) :
    RepV (XFSed.cumtrapz a b) (Utils.cumtrapz x y) := by
  intro i
  unfold XFSed.cumtrapz Utils.cumtrapz
  refine scan_rel (fun s s' => Rep s.1 s'.1 ∧ Rep s.2.1 s'.2.1 ∧ Rep s.2.2 s'.2.2) (fun s s' => Rep s.1 s'.1 ∧ Rep s.2 s'.2) Rep ?_ _ _ _ _
    ⟨ha 0, hb 0, Rep.fin 0⟩ (fun i => ⟨ha i, hb i⟩) i
  rintro ⟨s1, s2, s3⟩ ⟨t1, t2, t3⟩ ⟨b1, b2⟩ ⟨c1, c2⟩ ⟨h1, h2, h3⟩ ⟨g1, g2⟩
  have hc : Rep (s3 + (b1 - s1) * (b2 + s2) / 2.0) (t3 + (c1 - t1) * (c2 + t2) / 2.0) :=
    h3.add (((g1.sub h1).mul (g2.add h2)).div rep_two' (by norm_num))
  exact ⟨⟨g1, g2, hc⟩, hc⟩

theorem rep_trapz {a b : Fin (n + 1) → XF} {x y : Fin (n + 1) → ℝ} (ha : RepV a x) (hb : RepV b y) :
    Rep (XFSed.trapz a b) (Utils.trapz x y) :=
  rep_half.mul (rep_sum fun i => (repV_diff ha i).mul ((hb _).add (hb _)))

theorem repV_mstar {a b : Fin n → XF} {x y : Fin n → ℝ} (ha : RepV a x) (hb : RepV b y) :
    RepV (XFSed.cumulative_mstar_formed a b) (Utils.cumulative_mstar_formed x y) := by
  unfold XFSed.cumulative_mstar_formed Utils.cumulative_mstar_formed
  intro i
  exact (repV_tail (repV_cumtrapz (repV_setTail (repV_setAt (repV_zeros _) _ (Rep.fin _)) ha)
    (repV_setTail (repV_setAt (repV_zeros _) _ (Rep.fin _)) hb)) i).mul (Rep.fin _)

theorem rep_log10 {a : XF} {x : ℝ} (h : Rep a x) (hx : 0 < x) : Rep (XF.log10 a) (Jnp.log10 x) := by
  rw [h.log10 hx]; exact Rep.fin _

theorem rep_exp10 {a : XF} {x : ℝ} (h : Rep a x) : Rep (XF.exp10 a) (Jnp.exp10 x) := by
  rw [h.exp10]; exact Rep.fin _

theorem repV_floor {a : Fin n → XF} {x : Fin n → ℝ} (h : RepV a x) {c : XF} {y : ℝ} (hc : Rep c y) :
    RepV (open Classical in fun i => if a i < c then c else a i) (fun i => if x i < y then y else x i) :=
  fun i => by classical exact rep_ite ((h i).lt_iff hc) (fun _ => hc) (fun _ => h i)

/-! ### interpolation -/

theorem searchsorted_eq {a : Fin n → XF} {x : Fin n → ℝ} (h : RepV a x) {c : XF} {y : ℝ} (hc : Rep c y) :
    XFSed.searchsortedRight a c = Jnp.searchsortedRight x y := by
  classical
  unfold XFSed.searchsortedRight Jnp.searchsortedRight
  congr 1
  ext j
  simp only [Finset.mem_filter, Finset.mem_univ, true_and]
  exact (h j).le_iff hc

theorem cell_eq {a : Fin (n + 2) → XF} {x : Fin (n + 2) → ℝ} (h : RepV a x) {c : XF} {y : ℝ} (hc : Rep c y) :
    XFSed.interpCell a c = Jnp.interpCell x y := by
  unfold XFSed.interpCell Jnp.interpCell
  simp only [searchsorted_eq h hc]

theorem rep_abs {a : XF} {x : ℝ} (h : Rep a x) : Rep (XFSed.abs a) |x| := by
  rcases h with rfl | ⟨rfl, rfl⟩
  · exact Rep.fin _
  · rw [abs_zero]; exact Rep.fin 0

theorem rep_interpLR [Jnp.Dtype] {a b : Fin (n + 2) → XF} {x y : Fin (n + 2) → ℝ} (ha : RepV a x) (hb : RepV b y) {c l r : XF}
    {u v z : ℝ} (hc : Rep c u) (hl : Rep l v) (hr : Rep r z) :
    Rep (XFSed.interpLR c a b l r) (Jnp.interpLR u x y v z) := by
  classical
  unfold XFSed.interpLR Jnp.interpLR Jnp.interpBody
  simp only [cell_eq ha hc]
  set i := Jnp.interpCell x u
  have hdx : Rep (a i.succ - a i.castSucc) (x i.succ - x i.castSucc) := (ha _).sub (ha _)
  have hle : XFSed.abs (a i.succ - a i.castSucc) ≤ XF.fin Jnp.Dtype.interpEps ↔ |x i.succ - x i.castSucc| ≤ Jnp.Dtype.interpEps :=
    (rep_abs hdx).le_iff (Rep.fin _)
  refine rep_ite ((ha _).lt_iff hc) (fun _ => hr) fun _ => rep_ite (hc.lt_iff (ha 0)) (fun _ => hl) fun _ =>
    rep_ite hle (fun _ => hb _) fun h => ?_
  rw [if_neg (fun h' => h (hle.1 h'))]
  have hne : x i.succ - x i.castSucc ≠ 0 := by
    intro h0; rw [h0, abs_zero] at h; exact h Jnp.Dtype.interpEps_nonneg
  exact (hb _).add (((hc.sub (ha _)).div hdx hne).mul ((hb _).sub (hb _)))

theorem rep_interp [Jnp.Dtype] {a b : Fin (n + 2) → XF} {x y : Fin (n + 2) → ℝ} (ha : RepV a x) (hb : RepV b y) {c : XF}
    {u : ℝ} (hc : Rep c u) : Rep (XFSed.interp c a b) (Jnp.interp u x y) :=
  rep_interpLR ha hb hc (hb _) (hb _)

/-! ### ages -/

theorem rep_lgt_birth {a b : XF} {x y : ℝ} (ha : Rep a x) (hb : Rep b y) :
    Rep (XFSed.get_lgt_birth a b) (StellarAgeWeights.get_lgt_birth x y) := by
  classical
  unfold XFSed.get_lgt_birth StellarAgeWeights.get_lgt_birth
  have hd := ha.sub (rep_exp10 hb)
  refine rep_log10 (rep_ite (hd.lt_iff (Rep.fin T_BIRTH_MIN)) (fun _ => Rep.fin _) fun _ => hd) ?_
  split_ifs with h
  · norm_num [T_BIRTH_MIN]
  · exact lt_of_lt_of_le (by norm_num [T_BIRTH_MIN]) (not_lt.1 h)

theorem repV_logsm {a b : Fin (n + 1) → XF} {x y : Fin (n + 1) → ℝ} (ha : RepV a x) (hb : RepV b y) {c : XF} {u : ℝ} (hc : Rep c u)
    (hx : StrictMono x) (h0 : 0.001 < x 0) (hu : 0 < u) :
    RepV (XFSed.calc_logsm_table_from_sfh_table a b c) (StellarAgeWeights.calc_logsm_table_from_sfh_table x y u) := by
  unfold XFSed.calc_logsm_table_from_sfh_table StellarAgeWeights.calc_logsm_table_from_sfh_table
  have hf := repV_floor hb hc
  intro i
  refine rep_log10 (repV_mstar ha hf i) ?_
  rw [floor_eq]
  exact (Props.C12_mstar_pos_strictMono x _ hx h0 fun i => lt_max_of_lt_left hu).1 i

/-- the numerators of the age weights -/
noncomputable def deltaMass [Jnp.Dtype] (t s : Fin (n + 2) → ℝ) (a : Fin (m + 3) → ℝ) (t_obs sfr_min : ℝ) (i : Fin (m + 3)) : ℝ :=
  Spec.massFormed t s sfr_min (Spec.birthTime t_obs (StellarAgeWeights.get_lg_age_bin_edges a i.castSucc))
    - Spec.massFormed t s sfr_min (Spec.birthTime t_obs (StellarAgeWeights.get_lg_age_bin_edges a i.succ))

theorem sum_deltaMass [Jnp.Dtype] (t s : Fin (n + 2) → ℝ) (a : Fin (m + 3) → ℝ) (t_obs sfr_min : ℝ) :
    Jnp.sum (deltaMass t s a t_obs sfr_min) =
      Spec.massFormed t s sfr_min (Spec.birthTime t_obs (StellarAgeWeights.get_lg_age_bin_edges a 0))
    - Spec.massFormed t s sfr_min (Spec.birthTime t_obs (StellarAgeWeights.get_lg_age_bin_edges a (Fin.last (m + 3)))) :=
  sum_telescope' (fun i => Spec.massFormed t s sfr_min (Spec.birthTime t_obs (StellarAgeWeights.get_lg_age_bin_edges a i)))

/-- numerators and denominator of the float model -/
theorem age_weights_float [Jnp.Dtype] (t s : Fin (n + 2) → ℝ) (a : Fin (m + 3) → ℝ) (t_obs sfr_min : ℝ) (ht : StrictMono t)
    (h0 : 0.001 < t 0) (hs : 0 < sfr_min) :
    ∃ (d : Fin (m + 3) → XF) (D : XF), RepV d (deltaMass t s a t_obs sfr_min) ∧ Rep D (Jnp.sum (deltaMass t s a t_obs sfr_min)) ∧
      ∀ i, XFSed.calc_age_weights_from_sfh_table (fun j => fin (t j)) (fun j => fin (s j)) (fun j => fin (a j)) (fin t_obs)
        (fin sfr_min) i = d i / D := by
  have hlgt : RepV (fun i => XF.log10 (fin (t i))) (fun i => Jnp.log10 (t i)) := fun i =>
    rep_log10 (Rep.fin _) (lt_trans (by norm_num) (h0.trans_le (ht.monotone (Fin.zero_le i))))
  have hls := repV_logsm (RepV.fin t) (RepV.fin s) (Rep.fin sfr_min) ht h0 hs
  have hd : RepV (fun i : Fin (m + 3) => - XFSed.diff (fun i => XF.exp10 (XFSed.interp (XFSed.get_lgt_birth (fin t_obs)
      (XFSed.get_lg_age_bin_edges (fun j => fin (a j)) i)) (fun i => XF.log10 (fin (t i)))
      (XFSed.calc_logsm_table_from_sfh_table (fun j => fin (t j)) (fun j => fin (s j)) (fin sfr_min)))) i)
      (deltaMass t s a t_obs sfr_min) := by
    intro i
    have := (repV_diff (fun i => rep_exp10 (rep_interp hlgt hls (rep_lgt_birth (Rep.fin t_obs)
      (repV_lg_age_edges (RepV.fin a) i)))) i).neg
    unfold deltaMass
    rw [massFormed_eq, massFormed_eq, ← get_lgt_birth_eq, ← get_lgt_birth_eq]
    unfold Jnp.diff at this
    rw [neg_sub] at this
    exact this
  exact ⟨_, _, hd, rep_sum hd, fun i => rfl⟩

end Dsps.Lemmas
