import Verif.Lemmas.GenUtils

/-! The SED functions, recorded for differentiation, are `Traced`. -/
namespace Dsps.Lemmas
open Rev XF Topology Filter Dsps.Constants Spec

variable {ι : Type} [Fintype ι] {s : Prop} {θ : ι → ℝ} {n m k w : ℕ}

theorem traced_lgt_birth {a b : Rv ι} {T g : (ι → ℝ) → ℝ} (ha : Traced s a T θ) (hb : Traced s b g θ) :
    Traced (s ∧ T θ - (10:ℝ) ^ g θ ≠ 0.001) (Gen.get_lgt_birth a b) (fun θ => StellarAgeWeights.get_lgt_birth (T θ) (g θ)) θ := by
  have hd := ha.sub hb.exp10
  have hlt : Gen.lt (a - Flt.exp10 b) (Flt.lit T_BIRTH_MIN) ↔ T θ - Jnp.exp10 (g θ) < T_BIRTH_MIN :=
    lt_iff hd (Traced.lit (s := s) T_BIRTH_MIN)
  have hsel : Traced (s ∧ T θ - (10:ℝ) ^ g θ ≠ 0.001) _
      (fun θ => if T θ - Jnp.exp10 (g θ) < T_BIRTH_MIN then T_BIRTH_MIN else T θ - Jnp.exp10 (g θ)) θ :=
    Traced.sel (c := Gen.lt (a - Flt.exp10 b) (Flt.lit T_BIRTH_MIN)) (Traced.lit (s := s) T_BIRTH_MIN) hd
      (F := fun θ => if T θ - Jnp.exp10 (g θ) < T_BIRTH_MIN then T_BIRTH_MIN else T θ - Jnp.exp10 (g θ))
      (fun h => ⟨if_pos (hlt.1 h), fun hs => ⟨hs.1, by
        filter_upwards [(hd.continuousAt hs.1).eventually_lt continuousAt_const (hlt.1 h)] with y hy
        exact if_pos hy⟩⟩)
      (fun h => ⟨if_neg fun h' => h (hlt.2 h'), fun hs => ⟨hs.1, by
        have h1 : T_BIRTH_MIN ≤ T θ - Jnp.exp10 (g θ) := not_lt.1 fun h' => h (hlt.2 h')
        have h2 : T_BIRTH_MIN < T θ - Jnp.exp10 (g θ) := lt_of_le_of_ne h1 (by
          intro h'; apply hs.2; unfold Jnp.exp10 at h'; rw [← h']; norm_num [T_BIRTH_MIN])
        filter_upwards [(continuousAt_const (y := (T_BIRTH_MIN : ℝ))).eventually_lt (hd.continuousAt hs.1) h2] with y hy
        exact if_neg (not_lt.2 hy.le)⟩⟩)
  refine hsel.log10 ?_
  beta_reduce
  split_ifs with h
  · norm_num [T_BIRTH_MIN]
  · exact lt_of_lt_of_le (by norm_num [T_BIRTH_MIN]) (not_lt.1 h)

theorem traced_lgt_birth_fixed {a b : Rv ι} {T g : (ι → ℝ) → ℝ} (ha : Traced s a T θ) (hb : Traced s b g θ) (hT : Fixed T θ) (hg : Fixed g θ) :
    Traced s (Gen.get_lgt_birth a b) (fun θ => StellarAgeWeights.get_lgt_birth (T θ) (g θ)) θ := by
  have hd := ha.sub hb.exp10
  have hlt : Gen.lt (a - Flt.exp10 b) (Flt.lit T_BIRTH_MIN) ↔ T θ - Jnp.exp10 (g θ) < T_BIRTH_MIN :=
    lt_iff hd (Traced.lit (s := s) T_BIRTH_MIN)
  have hsel : Traced s _
      (fun θ => if T θ - Jnp.exp10 (g θ) < T_BIRTH_MIN then T_BIRTH_MIN else T θ - Jnp.exp10 (g θ)) θ :=
    Traced.sel (c := Gen.lt (a - Flt.exp10 b) (Flt.lit T_BIRTH_MIN)) (Traced.lit (s := s) T_BIRTH_MIN) hd
      (F := fun θ => if T θ - Jnp.exp10 (g θ) < T_BIRTH_MIN then T_BIRTH_MIN else T θ - Jnp.exp10 (g θ))
      (fun h => ⟨if_pos (hlt.1 h), fun hs => ⟨hs, by
        filter_upwards [hT, hg] with y h1 h2
        rw [h1, h2]; exact if_pos (hlt.1 h)⟩⟩)
      (fun h => ⟨if_neg fun h' => h (hlt.2 h'), fun hs => ⟨hs, by
        filter_upwards [hT, hg] with y h1 h2
        rw [h1, h2]; exact if_neg fun h' => h (hlt.2 h')⟩⟩)
  refine hsel.log10 ?_
  split_ifs with h
  · norm_num [T_BIRTH_MIN]
  · exact lt_of_lt_of_le (by norm_num [T_BIRTH_MIN]) (not_lt.1 h)

theorem lgt_birth_continuousAt {T g : (ι → ℝ) → ℝ} (hT : ContinuousAt T θ) (hg : ContinuousAt g θ) :
    ContinuousAt (fun θ => StellarAgeWeights.get_lgt_birth (T θ) (g θ)) θ := by
  simp only [get_lgt_birth_eq, Jnp.log10, Real.logb]
  have h1 : ContinuousAt (fun θ => birthTime (T θ) (g θ)) θ := by
    unfold birthTime
    exact continuousAt_const.max (hT.sub ((Real.continuousAt_const_rpow (a := 10) (by norm_num)).comp hg))
  exact (h1.log (birthTime_pos _ _).ne').div_const _

theorem TV.logsm {t S : (ι → ℝ) → Fin (n + 1) → ℝ} {c : (ι → ℝ) → ℝ} {a b : Fin (n + 1) → Rv ι} {d : Rv ι} (ha : TV s a t θ)
    (hb : TV s b S θ) (hd : Traced s d c θ) (ht : StrictMono (t θ)) (h0 : 0.001 < t θ 0) (hc : 0 < c θ) :
    TV (s ∧ ∀ i, S θ i ≠ c θ) (Gen.calc_logsm_table_from_sfh_table a b d)
      (fun θ => StellarAgeWeights.calc_logsm_table_from_sfh_table (t θ) (S θ) (c θ)) θ := by
  have hfl : TV (s ∧ ∀ i, S θ i ≠ c θ) (fun i => Flt.sel (Gen.lt (b i) d) d (b i)) (fun θ i => if S θ i < c θ then c θ else S θ i) θ := by
    intro i
    have hlt : Gen.lt (b i) d ↔ S θ i < c θ := lt_iff (hb i) hd
    exact Traced.sel hd (hb i)
      (fun h => ⟨if_pos (hlt.1 h), fun hs => ⟨hs.1, by
        filter_upwards [((hb i).continuousAt hs.1).eventually_lt (hd.continuousAt hs.1) (hlt.1 h)] with y hy
        exact if_pos hy⟩⟩)
      (fun h => ⟨if_neg fun h' => h (hlt.2 h'), fun hs => ⟨hs.1, by
        filter_upwards [(hd.continuousAt hs.1).eventually_lt ((hb i).continuousAt hs.1)
          (lt_of_le_of_ne (not_lt.1 fun h' => h (hlt.2 h')) (hs.2 i).symm)] with y hy
        exact if_neg (not_lt.2 hy.le)⟩⟩)
  intro i
  refine (((ha.weaken And.left).mstar hfl) i).log10 ?_
  show 0 < Utils.cumulative_mstar_formed (t θ) (fun i => if S θ i < c θ then c θ else S θ i) i
  rw [floor_eq]
  exact (Props.C12_mstar_pos_strictMono (t θ) _ ht h0 fun i => lt_max_of_lt_left hc).1 i

theorem table_pos {t : Fin (n + 1) → ℝ} (ht : StrictMono t) (h0 : 0.001 < t 0) (i : Fin (n + 1)) : 0 < t i :=
  lt_trans (by norm_num) (h0.trans_le (ht.monotone (Fin.zero_le i)))

theorem TV.lgt {t : (ι → ℝ) → Fin (n + 1) → ℝ} {a : Fin (n + 1) → Rv ι} (ha : TV s a t θ) (ht : StrictMono (t θ)) (h0 : 0.001 < t θ 0) :
    TV s (fun i => Flt.log10 (a i)) (fun θ i => Jnp.log10 (t θ i)) θ := fun i => (ha i).log10 (table_pos ht h0 i)

theorem log10_inj {x y : ℝ} (hx : 0 < x) (hy : 0 < y) (h : Jnp.log10 x = Jnp.log10 y) : x = y :=
  Real.logb_injOn_pos (by norm_num) hx hy h

theorem log10_lt' {x y : ℝ} (hx : 0 < x) (h : x < y) : Jnp.log10 x < Jnp.log10 y :=
  Real.logb_lt_logb (by norm_num) hx h

/-- interpolation in log time at the birth time of an age: no kink as long as the birth time is not a table time -/
theorem traced_interp_birth [Jnp.Dtype] {t f : (ι → ℝ) → Fin (n + 2) → ℝ} {T g : (ι → ℝ) → ℝ} {a F : Fin (n + 2) → Rv ι}
    {b d : Rv ι} (ha : TV s a t θ) (hF : TV s F f θ) (hT : Traced s b T θ) (hg : Traced s d g θ) (ht : StrictMono (t θ)) (h0 : 0.001 < t θ 0) :
    Traced (s ∧ Jnp.Resolved (fun i => Real.logb 10 (t θ i)) ∧ ∀ j, birthTime (T θ) (g θ) ≠ t θ j)
      (Gen.interp (Gen.get_lgt_birth b d) (fun i => Flt.log10 (a i)) F)
      (fun θ => Jnp.interp (StellarAgeWeights.get_lgt_birth (T θ) (g θ)) (fun i => Jnp.log10 (t θ i)) (f θ)) θ := by
  refine (traced_interp (s := s) (traced_lgt_birth hT hg)
    (fun hs => lgt_birth_continuousAt (hT.continuousAt hs) (hg.continuousAt hs)) (ha.lgt ht h0) hF).weaken ?_
  rintro ⟨hs, hr, hne⟩
  refine ⟨hs, hr, ?_⟩
  by_cases hk : T θ - (10:ℝ) ^ g θ = 0.001
  · left
    rw [get_lgt_birth_eq]
    refine log10_lt' (birthTime_pos _ _) ?_
    unfold birthTime; rw [hk]; simpa using h0
  · right; right
    refine ⟨⟨hs, hk⟩, fun j h => hne j ?_⟩
    rw [get_lgt_birth_eq] at h
    exact log10_inj (birthTime_pos _ _) (table_pos ht h0 j) h

theorem traced_interp_birth_fixed [Jnp.Dtype] {t f : (ι → ℝ) → Fin (n + 2) → ℝ} {T g : (ι → ℝ) → ℝ} {a F : Fin (n + 2) → Rv ι}
    {b d : Rv ι} (ha : TV s a t θ) (hF : TV s F f θ) (hT : Traced s b T θ) (hg : Traced s d g θ) (ht : StrictMono (t θ)) (h0 : 0.001 < t θ 0)
    (ht' : Fixed t θ) (hT' : Fixed T θ) (hg' : Fixed g θ) :
    Traced s (Gen.interp (Gen.get_lgt_birth b d) (fun i => Flt.log10 (a i)) F)
      (fun θ => Jnp.interp (StellarAgeWeights.get_lgt_birth (T θ) (g θ)) (fun i => Jnp.log10 (t θ i)) (f θ)) θ :=
  traced_interp_fixed (traced_lgt_birth_fixed hT hg hT' hg') (ha.lgt ht h0) hF
    (by filter_upwards [hT', hg'] with y h1 h2; rw [h1, h2]) (by filter_upwards [ht'] with y h1; rw [h1])

/-- either the times and ages do not depend on the parameters, or no birth time is a table time -/
def OffKnots {m : ℕ} (t : (ι → ℝ) → Fin (n + 2) → ℝ) (A : (ι → ℝ) → Fin m → ℝ) (T : (ι → ℝ) → ℝ) (θ : ι → ℝ) : Prop :=
  (Fixed t θ ∧ Fixed A θ ∧ Fixed T θ) ∨ ∀ e j, birthTime (T θ) (A θ e) ≠ t θ j

theorem traced_interp_birth' [Jnp.Dtype] {m : ℕ} {t f : (ι → ℝ) → Fin (n + 2) → ℝ} {T : (ι → ℝ) → ℝ} {A : (ι → ℝ) → Fin m → ℝ} {a F : Fin (n + 2) → Rv ι}
    {b : Rv ι} {A' : Fin m → Rv ι} (ha : TV s a t θ) (hF : TV s F f θ) (hT : Traced s b T θ) (hA : TV s A' A θ) (ht : StrictMono (t θ)) (h0 : 0.001 < t θ 0)
    (hr : Jnp.Resolved (fun i => Real.logb 10 (t θ i))) (e : Fin m) :
    Traced (s ∧ OffKnots t A T θ)
      (Gen.interp (Gen.get_lgt_birth b (A' e)) (fun i => Flt.log10 (a i)) F)
      (fun θ => Jnp.interp (StellarAgeWeights.get_lgt_birth (T θ) (A θ e)) (fun i => Jnp.log10 (t θ i)) (f θ)) θ := by
  by_cases h : Fixed t θ ∧ Fixed A θ ∧ Fixed T θ
  · refine (traced_interp_birth_fixed ha hF hT (hA e) ht h0 h.1 h.2.2 ?_).weaken And.left
    filter_upwards [h.2.1] with y h1; rw [h1]
  · refine (traced_interp_birth ha hF hT (hA e) ht h0).weaken fun hs => ⟨hs.1, hr, ?_⟩
    exact (hs.2.resolve_left h) e

theorem TV.age_weights [Jnp.Dtype] {t S : (ι → ℝ) → Fin (n + 2) → ℝ} {A : (ι → ℝ) → Fin (m + 3) → ℝ} {T c : (ι → ℝ) → ℝ}
    {t' S' : Fin (n + 2) → Rv ι} {A' : Fin (m + 3) → Rv ι} {T' c' : Rv ι} (ht' : TV s t' t θ) (hS : TV s S' S θ) (hA : TV s A' A θ)
    (hT : Traced s T' T θ) (hc : Traced s c' c θ) (ht : StrictMono (t θ)) (h0 : 0.001 < t θ 0) (hc0 : 0 < c θ)
    (hr : Jnp.Resolved (fun i => Real.logb 10 (t θ i)))
    (hne : massFormed (t θ) (S θ) (c θ) (birthTime (T θ) (StellarAgeWeights.get_lg_age_bin_edges (A θ) 0)) ≠
      massFormed (t θ) (S θ) (c θ) (birthTime (T θ) (StellarAgeWeights.get_lg_age_bin_edges (A θ) (Fin.last (m + 3))))) :
    TV (s ∧ (∀ i, S θ i ≠ c θ) ∧ OffKnots t (fun θ => StellarAgeWeights.get_lg_age_bin_edges (A θ)) T θ) (Gen.calc_age_weights_from_sfh_table t' S' A' T' c')
      (fun θ => StellarAgeWeights.calc_age_weights_from_sfh_table (t θ) (S θ) (A θ) (T θ) (c θ)) θ := by
  have hls := ht'.logsm hS hc ht h0 hc0
  have hI := fun e => (traced_interp_birth' (s := s ∧ ∀ i, S θ i ≠ c θ) (ht'.weaken And.left) hls (hT.weaken And.left)
    (hA.lg_age_edges.weaken And.left) ht h0 hr e).weaken
      (s' := s ∧ (∀ i, S θ i ≠ c θ) ∧ OffKnots t (fun θ => StellarAgeWeights.get_lg_age_bin_edges (A θ)) T θ)
      fun h => ⟨⟨h.1, h.2.1⟩, h.2.2⟩
  have hE : TV _ _ _ θ := fun e => (hI e).exp10
  have hD := fun i => (hE.diff i).neg
  have hsum := Traced.sum hD
  refine fun i => (hD i).div hsum ?_
  have := sum_deltaMass (t θ) (S θ) (A θ) (T θ) (c θ)
  have e : (fun i => -Jnp.diff (fun i => Jnp.exp10 (Jnp.interp (StellarAgeWeights.get_lgt_birth (T θ) (StellarAgeWeights.get_lg_age_bin_edges (A θ) i))
      (fun i => Jnp.log10 (t θ i)) (StellarAgeWeights.calc_logsm_table_from_sfh_table (t θ) (S θ) (c θ)))) i) = deltaMass (t θ) (S θ) (A θ) (T θ) (c θ) := by
    funext i
    unfold deltaMass
    rw [massFormed_eq, massFormed_eq, ← get_lgt_birth_eq, ← get_lgt_birth_eq]
    unfold Jnp.diff
    rw [neg_sub]; rfl
  rw [e, this]
  exact sub_ne_zero.2 hne

theorem TV.lgmet_lognormal {x sig : (ι → ℝ) → ℝ} {z : (ι → ℝ) → Fin (k + 3) → ℝ} {x' sig' : Rv ι} {z' : Fin (k + 3) → Rv ι}
    (hx : Traced s x' x θ) (hsig : Traced s sig' sig θ) (hz : TV s z' z θ) (hpos : 0 < sig θ)
    (hmono : StrictMono (Utils.get_bin_edges (z θ) LGMET_LO LGMET_HI)) :
    TV s (Gen.calc_lgmet_weights_from_lognormal_mdf x' sig' z')
      (fun θ => MetallicityWeights.calc_lgmet_weights_from_lognormal_mdf (x θ) (sig θ) (z θ)) θ :=
  fun i => traced_triweights hx hsig (hz.edges (Traced.lit _) (Traced.lit _)) hpos hmono i

theorem traced_lgmet_table [Jnp.Dtype] {t f : (ι → ℝ) → Fin (n + 2) → ℝ} {sig T : (ι → ℝ) → ℝ} {z : (ι → ℝ) → Fin (k + 3) → ℝ}
    {A : (ι → ℝ) → Fin (m + 1) → ℝ} {t' f' : Fin (n + 2) → Rv ι} {sig' T' : Rv ι} {z' : Fin (k + 3) → Rv ι} {A' : Fin (m + 1) → Rv ι}
    (ht' : TV s t' t θ) (hf : TV s f' f θ) (hsig : Traced s sig' sig θ) (hz : TV s z' z θ) (hA : TV s A' A θ) (hT : Traced s T' T θ)
    (hpos : 0 < sig θ) (hmono : StrictMono (Utils.get_bin_edges (z θ) LGMET_LO LGMET_HI)) (ht : StrictMono (t θ)) (h0 : 0.001 < t θ 0)
    (hr : Jnp.Resolved (fun i => Real.logb 10 (t θ i))) (i : Fin (k + 3)) (j : Fin (m + 1)) :
    Traced (s ∧ OffKnots t A T θ)
      (Gen.calc_lgmet_weights_from_lgmet_table t' f' sig' z' A' T' i j)
      (fun θ => MetallicityWeights.calc_lgmet_weights_from_lgmet_table (t θ) (f θ) (sig θ) (z θ) (A θ) (T θ) i j) θ := by
  have hI := traced_interp_birth' ht' hf hT hA ht h0 hr j
  have hm : ((m + 1 : ℕ) : ℝ) ≠ 0 := by positivity
  have he : TV s (Gen.get_bin_edges z' (Flt.lit LGMET_LO) (Flt.lit LGMET_HI)) (fun θ => Utils.get_bin_edges (z θ) LGMET_LO LGMET_HI) θ :=
    hz.edges (Traced.lit _) (Traced.lit _)
  have h1 := traced_triweights hI (hsig.weaken And.left) (he.weaken And.left) hpos hmono i
  have h2 := h1.div (Traced.lit ((m + 1 : ℕ) : ℝ)) hm
  have e : (fun θ => MetallicityWeights.calc_lgmet_weights_from_lgmet_table (t θ) (f θ) (sig θ) (z θ) (A θ) (T θ) i j) = 
    fun θ => Utils.get_triweights_singlepoint (Jnp.interp (StellarAgeWeights.get_lgt_birth (T θ) (A θ j)) (fun i => Jnp.log10 (t θ i)) (f θ)) (sig θ)
      (Utils.get_bin_edges (z θ) LGMET_LO LGMET_HI) i / ((m + 1 : ℕ) : ℝ) := by
    funext θ; rfl
  rw [e, Gen.lgmet_table_apply]
  exact h2

theorem traced_sum2 {a b : ℕ} {X : Fin a → Fin b → Rv ι} {f : (ι → ℝ) → Fin a → Fin b → ℝ} (h : ∀ i j, Traced s (X i j) (fun θ => f θ i j) θ) :
    Traced s (Gen.sum2 X) (fun θ => SspWeights.sum2 (f θ)) θ := Traced.sum fun i => Traced.sum fun j => h i j

theorem traced_ssp_weights {a b : ℕ} {L : Fin a → Fin b → Rv ι} {B : Fin b → Rv ι} {l : (ι → ℝ) → Fin a → Fin b → ℝ}
    {x : (ι → ℝ) → Fin b → ℝ} (hL : ∀ i j, Traced s (L i j) (fun θ => l θ i j) θ) (hB : TV s B x θ)
    (h0 : SspWeights.sum2 (fun i j => l θ i j * x θ j) ≠ 0) (i : Fin a) (j : Fin b) :
    Traced s (Gen.ssp_weights L B i j) (fun θ => l θ i j * x θ j / SspWeights.sum2 (fun i j => l θ i j * x θ j)) θ :=
  ((hL i j).mul (hB j)).div (traced_sum2 fun i j => (hL i j).mul (hB j)) h0

theorem traced_mstar_obs [Jnp.Dtype] {t S : (ι → ℝ) → Fin (n + 2) → ℝ} {T c : (ι → ℝ) → ℝ}
    {t' S' : Fin (n + 2) → Rv ι} {T' c' : Rv ι} (ht' : TV s t' t θ) (hS : TV s S' S θ)
    (hT : Traced s T' T θ) (hc : Traced s c' c θ) (ht : StrictMono (t θ)) (h0 : 0.001 < t θ 0) (hc0 : 0 < c θ) (hT0 : 0 < T θ)
    (hr : Jnp.Resolved (fun i => Real.logb 10 (t θ i))) :
    Traced (s ∧ (∀ i, S θ i ≠ c θ) ∧ ((Fixed t θ ∧ Fixed T θ) ∨ ∀ j, T θ ≠ t θ j))
      (Gen.mstar_obs t' S' T' c') (fun θ => SspWeights.mstar_obs (t θ) (S θ) (T θ) (c θ)) θ := by
  have hl := hT.log10 hT0
  by_cases h : Fixed t θ ∧ Fixed T θ
  · refine ((traced_interp_fixed (s := s ∧ ∀ i, S θ i ≠ c θ) (hl.weaken And.left) ((ht'.lgt ht h0).weaken And.left)
      (ht'.logsm hS hc ht h0 hc0) ?_ ?_).weaken fun h => ⟨h.1, h.2.1⟩).exp10
    · filter_upwards [h.2] with y h1; rw [h1]
    · filter_upwards [h.1] with y h1; rw [h1]
  · refine ((traced_interp (s := s ∧ ∀ i, S θ i ≠ c θ) hl (fun hs => hl.continuousAt hs.1) ((ht'.lgt ht h0).weaken And.left)
      (ht'.logsm hS hc ht h0 hc0)).weaken ?_).exp10
    rintro ⟨hs, hne, hT'⟩
    exact ⟨⟨hs, hne⟩, hr, Or.inr (Or.inr ⟨hs, fun j h' => hT'.resolve_left h j (log10_inj hT0 (table_pos ht h0 j) h')⟩)⟩

end Dsps.Lemmas
