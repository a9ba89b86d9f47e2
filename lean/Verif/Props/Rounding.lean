import Verif.Lemmas.Fl
import Verif.Lemmas.Round
import Verif.Lemmas.Interp
import Verif.Props.SspWeights

/-! C97–C99: floating-point rounding.  The programs are those of `Verif/Model/Rounded.lean`; the exact functions they are
compared with are the real-number models.  `Fl.Within A k x' x` says that `x'` equals `x` up to `k` relative errors of size
`A.u` (the unit roundoff). -/
namespace Dsps.Props
open Jnp Fl Dsps.Lemmas Dsps.Constants Spec

variable {A : Arith} {n m w : ℕ}

/-! ## reading `Within` -/

/-- `Within` as a relative error bound: `k` roundings cost at most `k u / (1 - k u)`. -/
theorem within_rel_error {k : ℕ} {x' x : ℝ} (hx : 0 ≤ x) (h : Within A k x' x) (hk : k * A.u < 1) :
    |x' - x| ≤ k * A.u / (1 - k * A.u) * x := by
  have hb : 1 - k * A.u ≤ (1 - A.u) ^ k := by
    have := one_add_mul_le_pow (a := -A.u) (by linarith [A.u_lt_one]) k
    calc 1 - k * A.u = 1 + k * (-A.u) := by ring
      _ ≤ (1 + -A.u) ^ k := this
      _ = _ := by rw [← sub_eq_add_neg]
  have hd : 0 < 1 - k * A.u := by linarith
  have hx' := Within'.nonneg hx h
  have h1 : x * (1 - k * A.u) ≤ x' := (mul_le_mul_of_nonneg_left hb hx).trans h.1
  have h2 : x' * (1 - k * A.u) ≤ x := (mul_le_mul_of_nonneg_left hb hx').trans h.2
  have hku : 0 ≤ k * A.u := mul_nonneg (Nat.cast_nonneg _) A.u_nonneg
  rw [div_mul_eq_mul_div, le_div_iff₀ hd]
  have e : |x' - x| * (1 - k * A.u) = |(x' - x) * (1 - k * A.u)| := by rw [abs_mul, abs_of_pos hd]
  rw [e]
  rw [abs_le]
  constructor
  · nlinarith [mul_nonneg hku hx]
  · nlinarith

/-! ## C97 -/

lemma birth_within {tb t0 : ℝ} (htb : tb ∈ A.rnd T_BIRTH_MIN) (ht : 0.01 ≤ t0) :
    tb ≤ t0 ∧ Within A 1 (t0 - tb) (t0 - 0.001) := by
  have h := abs_le.mp (A.rel _ _ htb)
  have e : |T_BIRTH_MIN| = 0.001 := by rw [T_BIRTH_MIN, abs_of_pos]; norm_num
  rw [e, T_BIRTH_MIN] at h
  have hu := A.u_nonneg
  have hu1 := A.u_lt_one
  norm_num at h ht ⊢
  refine ⟨by linarith, ?_, ?_⟩
  · rw [pow_one]; nlinarith [mul_nonneg hu (show 0 ≤ t0 - 1/100 by linarith)]
  · rw [pow_one]; nlinarith [mul_nonneg hu (show 0 ≤ t0 - 1/100 by linarith), mul_nonneg hu hu]

/-- The padded tables of the machine program: the recurrence they satisfy. -/
lemma mstar_steps {t s out : Fin (n + 1) → ℝ} (h : out ∈ Rounded.cumulative_mstar_formed A t s) :
    ∃ tb ∈ A.rnd T_BIRTH_MIN, ∃ sb ∈ A.rnd SFR_MIN, ∃ c : Fin (n + 1) → ℝ,
      c 0 ∈ stepSet A tb sb (t 0) (s 0) 0 ∧
      (∀ k : Fin n, c k.succ ∈ stepSet A (t k.castSucc) (s k.castSucc) (t k.succ) (s k.succ) (c k.castSucc)) ∧
      ∀ i, out i ∈ A.mul (c i) 1e9 := by
  obtain ⟨tb, htb, sb, hsb, c, hc, ho⟩ := h
  obtain ⟨h0, hs⟩ := cumtrapz_steps hc
  refine ⟨tb, htb, sb, hsb, fun i => c i.succ, ?_, fun k => ?_, fun i => ?_⟩
  · have hz : c 0 = 0 := by
      obtain ⟨dx, h1, s', h2, p, h3, q, h4, h5⟩ := h0
      have e1 : dx = 0 := rnd_zero (A := A) (by simpa [Arith.sub] using h1)
      subst e1
      have e2 : p = 0 := rnd_zero (A := A) (by simpa [Arith.mul] using h3)
      subst e2
      have e3 : q = 0 := rnd_zero (A := A) (by simpa [Arith.div] using h4)
      subst e3
      exact rnd_zero (A := A) (by simpa [Arith.add] using h5)
    have := hs 0
    rw [Fin.castSucc_zero, hz] at this
    simpa only [setTail_succ, setTail_zero, Jnp.setAt, Function.update_self] using this
  · have := hs k.succ
    simpa only [← Fin.succ_castSucc, setTail_succ] using this
  · have := ho i
    simp only [Jnp.tail, Utils.YEAR_PER_GYR] at this
    exact this

/-- C97: for a documented input (times non-decreasing from `T_TABLE_MIN = 0.01` Gyr on, SFR non-negative) the `i`-th
cumulative mass computed in floating point agrees with the exact trapezoid integral up to `i + 8` relative roundings. -/
theorem C97_mstar_rounding (t s : Fin (n + 1) → ℝ) (ht : Monotone t) (ht0 : 0.01 ≤ t 0) (hs : ∀ i, 0 ≤ s i)
    {out : Fin (n + 1) → ℝ} (h : out ∈ Rounded.cumulative_mstar_formed A t s) (i : Fin (n + 1)) :
    Within A (i + 8) (out i) (Utils.cumulative_mstar_formed t s i) := by
  obtain ⟨tb, htb, sb, hsb, c, h0, hstep, ho⟩ := mstar_steps h
  obtain ⟨hb1, hb2⟩ := birth_within htb ht0
  have sm : (0:ℝ) ≤ SFR_MIN := by rw [SFR_MIN]; norm_num
  have hsb' := Within'.rndR sm hsb
  have hT : (0.001 : ℝ) ≤ t 0 := by norm_num at ht0 ⊢; linarith
  -- exact recurrence, in units of 1e9
  set M := fun i => Utils.cumulative_mstar_formed t s i / 1e9 with hM
  have M0 : M 0 = 0 + (t 0 - 0.001) * (s 0 + SFR_MIN) / 2 := by
    simp only [hM, (C12_mstar_formula t s).1, trapezoidArea, SFR_MIN]; ring
  have MS : ∀ k : Fin n, M k.succ = M k.castSucc + (t k.succ - t k.castSucc) * (s k.succ + s k.castSucc) / 2 := by
    intro k
    simp only [hM, (C12_mstar_formula t s).2, trapezoidArea]; ring
  have key : ∀ i : Fin (n + 1), 0 ≤ M i ∧ Within A (i + 7) (c i) (M i) := by
    intro i
    induction i using Fin.induction with
    | zero =>
      have w := step_within (kx := 1) (ky := 1) (k := 6) hb1 hT hb2 sm hsb' (hs 0) le_rfl (Within'.zero 6) (by norm_num) h0
      rw [M0]
      refine ⟨?_, w⟩
      have := mul_nonneg (sub_nonneg.mpr hT) (add_nonneg (hs 0) sm); linarith
    | succ k ih =>
      have hk := ht (Fin.castSucc_lt_succ (i := k)).le
      have w := step_within (kx := 0) (ky := 0) (k := (k.castSucc : ℕ) + 7) hk hk (Within'.refl (sub_nonneg.mpr hk)) (hs _)
        (Within'.refl (hs _)) (hs k.succ) ih.1 ih.2 (by omega) (hstep k)
      rw [MS]
      have := mul_nonneg (sub_nonneg.mpr hk) (add_nonneg (hs k.succ) (hs k.castSucc))
      refine ⟨by linarith [ih.1], ?_⟩
      simpa [add_assoc, add_comm, add_left_comm] using w
  obtain ⟨k1, k2⟩ := key i
  have h9 : (0:ℝ) ≤ 1e9 := by norm_num
  have := Within'.mulR k1 h9 k2 (Within'.refl h9) (ho i)
  have e : M i * 1e9 = Utils.cumulative_mstar_formed t s i := by simp only [hM]; exact div_mul_cancel₀ _ (by norm_num)
  rw [e] at this
  exact this

/-- C97, read as a relative error: at most `(i+8) u / (1 - (i+8) u)`. -/
theorem C97_mstar_rel_error (t s : Fin (n + 1) → ℝ) (ht : Monotone t) (ht0 : 0.01 ≤ t 0) (hs : ∀ i, 0 ≤ s i)
    {out : Fin (n + 1) → ℝ} (h : out ∈ Rounded.cumulative_mstar_formed A t s) (i : Fin (n + 1)) (hi : (i + 8 : ℝ) * A.u < 1) :
    |out i - Utils.cumulative_mstar_formed t s i|
      ≤ (i + 8 : ℝ) * A.u / (1 - (i + 8 : ℝ) * A.u) * Utils.cumulative_mstar_formed t s i := by
  have hT : (0.001 : ℝ) < t 0 := by norm_num at ht0 ⊢; linarith
  have := within_rel_error ((C12_mstar_pos_of_nonneg t s ht hT hs).1 i).le (C97_mstar_rounding t s ht ht0 hs h i)
    (by push_cast; exact hi)
  push_cast at this
  exact this

/-- C97, single precision: on a table of up to 1000 times the relative error is below 6.1e-5. -/
theorem C97_mstar_float32 (t s : Fin (n + 1) → ℝ) (hn : n < 1000) (ht : Monotone t) (ht0 : 0.01 ≤ t 0) (hs : ∀ i, 0 ≤ s i)
    {out : Fin (n + 1) → ℝ} (h : out ∈ Rounded.cumulative_mstar_formed (binary 24 (by norm_num)) t s) (i : Fin (n + 1)) :
    |out i - Utils.cumulative_mstar_formed t s i| ≤ 6.1e-5 * Utils.cumulative_mstar_formed t s i := by
  have hu : (binary 24 (by norm_num)).u = (1 / 2) ^ 24 := rfl
  have hi : (i : ℝ) ≤ 999 := by
    have : (i : ℕ) ≤ 999 := by omega
    exact_mod_cast this
  have h1 : (i + 8 : ℝ) * (1 / 2) ^ 24 ≤ 6.01e-5 := by
    have : (i + 8 : ℝ) * (1 / 2) ^ 24 ≤ 1007 * (1 / 2) ^ 24 := by
      apply mul_le_mul_of_nonneg_right <;> [linarith; positivity]
    refine this.trans (by norm_num)
  have h0 : 0 ≤ (i + 8 : ℝ) * (1 / 2) ^ 24 := by positivity
  have hT : (0.001 : ℝ) < t 0 := by norm_num at ht0 ⊢; linarith
  have hpos := ((C12_mstar_pos_of_nonneg t s ht hT hs).1 i).le
  have := C97_mstar_rel_error t s ht ht0 hs h i (by rw [hu]; norm_num at h1 ⊢; linarith)
  refine this.trans (mul_le_mul_of_nonneg_right ?_ hpos)
  rw [hu]
  norm_num at h1 h0 ⊢
  rw [div_le_iff₀ (by linarith)]
  linarith

/-- C97: with monotone rounding to machine numbers the computed cumulative mass never decreases – exactly, not just up to
rounding. -/
theorem C97_mstar_nondecreasing (hmono : A.Monotone) (hcl : A.Closed) (t s : Fin (n + 1) → ℝ) (ht : Monotone t)
    (ht0 : 0.01 ≤ t 0) (hs : ∀ i, 0 ≤ s i) {out : Fin (n + 1) → ℝ} (h : out ∈ Rounded.cumulative_mstar_formed A t s) :
    Monotone out ∧ ∀ i, 0 ≤ out i := by
  obtain ⟨tb, htb, sb, hsb, c, h0, hstep, ho⟩ := mstar_steps h
  have hc : ∀ i : Fin (n + 1), ∃ x, c i ∈ A.rnd x := by
    intro i
    refine Fin.cases ?_ (fun k => ?_) i
    · obtain ⟨_, _, _, _, _, _, q, _, h5⟩ := h0; exact ⟨_, h5⟩
    · obtain ⟨_, _, _, _, _, _, q, _, h5⟩ := hstep k; exact ⟨_, h5⟩
  have hmc : Monotone c := by
    rw [Fin.monotone_iff_le_succ]
    intro k
    obtain ⟨x, hx⟩ := hc k.castSucc
    obtain ⟨q, hq, hr⟩ := step_nonneg (ht (Fin.castSucc_lt_succ (i := k)).le) (hs _) (hs _) (hstep k)
    have hself : c k.castSucc ∈ A.rnd (c k.castSucc) := by rw [hcl x _ hx]; rfl
    exact hmono _ _ _ hself _ hr (by linarith)
  refine ⟨fun i j hij => ?_, fun i => ?_⟩
  · refine hmono _ _ _ (ho i) _ (ho j) ?_
    exact mul_le_mul_of_nonneg_right (hmc hij) (by norm_num)
  · have hT : (0.001 : ℝ) < t 0 := by norm_num at ht0 ⊢; linarith
    exact Within'.nonneg ((C12_mstar_pos_of_nonneg t s ht hT hs).1 i).le (C97_mstar_rounding t s ht ht0 hs h i)

lemma binary_nonempty (p : ℕ) (hp : 1 ≤ p) (x : ℝ) : ((binary p hp).rnd x).Nonempty := ⟨_, rfl⟩
lemma any_nonempty (u : ℝ) (h0 : 0 ≤ u) (h1 : u < 1) (x : ℝ) : ((Arith.any u h0 h1).rnd x).Nonempty :=
  ⟨x, by simp only [Arith.any, Set.mem_setOf_eq, sub_self, abs_zero]; positivity⟩

/-- the hypotheses of C97 are met: two-point table in float32 arithmetic -/
example : ∃ (t s : Fin 2 → ℝ) (out : Fin 2 → ℝ), Monotone t ∧ 0.01 ≤ t 0 ∧ (∀ i, 0 ≤ s i) ∧
    out ∈ Rounded.cumulative_mstar_formed (binary 24 (by norm_num)) t s ∧
    (binary 24 (by norm_num)).Monotone ∧ (binary 24 (by norm_num)).Closed := by
  obtain ⟨o, ho⟩ := mstar_nonempty (binary_nonempty 24 (by norm_num)) ![0.5, 13.5] ![1, 2]
  refine ⟨![0.5, 13.5], ![1, 2], o, ?_, by norm_num, ?_, ho, binary_monotone _ _, binary_closed _ _⟩
  · rw [Fin.monotone_iff_le_succ]; intro i; fin_cases i; simp; norm_num
  · intro i; fin_cases i <;> simp

/-! ## C98 -/

/-- C98: normalising any non-negative, not identically zero array in floating point gives non-negative weights that agree
with the exact ratios, and whose exact sum is 1, up to `d + 1` relative roundings (`d` = longest chain of additions). -/
theorem C98_normalized {ι : Type*} [DecidableEq ι] [Fintype ι] {d : ℕ} {x out : ι → ℝ} (hx : ∀ i, 0 ≤ x i)
    (hpos : 0 < ∑ i, x i) (h : out ∈ Rounded.normalize A d x) :
    (∀ i, 0 ≤ out i) ∧ (∀ i, Within A (d + 1) (out i) (x i / ∑ j, x j)) ∧ Within A (d + 1) (∑ i, out i) 1 := by
  obtain ⟨t, ht, ho⟩ := h
  have wt := sum_within (k := 0) hx (fun i => Within'.refl (hx i)) ht
  rw [zero_add] at wt
  have w : ∀ i, Within A (d + 1) (out i) (x i / ∑ j, x j) := fun i => by
    have := Within'.divR (hx i) hpos.le (Within'.refl (hx i)) wt (ho i)
    rw [zero_add] at this; exact this
  refine ⟨fun i => Within'.nonneg (div_nonneg (hx i) hpos.le) (w i), w, ?_⟩
  have e : ∑ i, x i / ∑ j, x j = 1 := by rw [← Finset.sum_div, div_self hpos.ne']
  constructor
  · calc 1 * (1 - A.u) ^ (d + 1) = (∑ i, x i / ∑ j, x j) * (1 - A.u) ^ (d + 1) := by rw [e]
      _ ≤ ∑ i, out i := by rw [Finset.sum_mul]; exact Finset.sum_le_sum fun i _ => (w i).1
  · rw [Finset.sum_mul]; exact (Finset.sum_le_sum fun i _ => (w i).2).trans e.le

/-- C98: the joint weights computed from floating-point marginals `lg`, `age` that approximate the exact marginals `lg0`,
`age0` to `a` and `b` roundings. -/
theorem C98_joint_weights {a b d : ℕ} {lg lg0 : Fin m → Fin n → ℝ} {age age0 : Fin n → ℝ} (hlg : ∀ i j, 0 ≤ lg0 i j)
    (hage : ∀ j, 0 ≤ age0 j) (hpos : 0 < ∑ i, ∑ j, lg0 i j * age0 j) (h1 : ∀ i j, Within A a (lg i j) (lg0 i j))
    (h2 : ∀ j, Within A b (age j) (age0 j)) {out : Fin m × Fin n → ℝ} (h : out ∈ Rounded.ssp_weights A d lg age) :
    (∀ ij, 0 ≤ out ij) ∧
    (∀ i j, Within A (2 * (a + b) + d + 3) (out (i, j)) (lg0 i j * age0 j / ∑ i, ∑ j, lg0 i j * age0 j)) ∧
    Within A (d + 1) (∑ ij, out ij) 1 := by
  obtain ⟨p, hp, ho⟩ := h
  have wp : ∀ ij : Fin m × Fin n, Within A (a + b + 1) (p ij) (lg0 ij.1 ij.2 * age0 ij.2) := fun ij =>
    Within'.mulR (hlg _ _) (hage _) (h1 _ _) (h2 _) (hp ij)
  have nn : ∀ ij : Fin m × Fin n, 0 ≤ lg0 ij.1 ij.2 * age0 ij.2 := fun ij => mul_nonneg (hlg _ _) (hage _)
  have e : ∑ i, ∑ j, lg0 i j * age0 j = ∑ ij : Fin m × Fin n, lg0 ij.1 ij.2 * age0 ij.2 := by
    rw [Fintype.sum_prod_type]
  have hp0 : ∀ ij, 0 ≤ p ij := fun ij => Within'.nonneg (nn ij) (wp ij)
  have hps : 0 < ∑ ij, p ij := by
    rw [e] at hpos
    obtain ⟨ij, _, hij⟩ := Finset.exists_lt_of_sum_lt (s := Finset.univ) (f := fun _ : Fin m × Fin n => (0:ℝ))
      (g := fun ij => lg0 ij.1 ij.2 * age0 ij.2) (by simpa using hpos)
    exact Finset.sum_pos' (fun ij _ => hp0 ij) ⟨ij, Finset.mem_univ _, Within'.pos hij (wp ij)⟩
  obtain ⟨n1, _, n3⟩ := C98_normalized hp0 hps ho
  refine ⟨n1, fun i j => ?_, n3⟩
  obtain ⟨t, ht, ho⟩ := ho
  have wt := sum_within nn wp ht
  rw [← e] at wt
  have := Within'.divR (nn (i, j)) hpos.le (wp (i, j)) wt (ho (i, j))
  exact Within'.mono (div_nonneg (nn (i, j)) hpos.le) this (by omega)

lemma sed_within {a c d : ℕ} {flux : Fin m → Fin n → Fin w → ℝ} {wt wt0 : Fin m × Fin n → ℝ} {M M0 : ℝ}
    (hf : ∀ i j l, 0 ≤ flux i j l) (hw0 : ∀ ij, 0 ≤ wt0 ij) (hw : ∀ ij, Within A a (wt ij) (wt0 ij)) (hM0 : 0 ≤ M0)
    (hM : Within A c M M0) {out : Fin w → ℝ} (h : out ∈ Rounded.rest_sed A d flux wt M) (l : Fin w) :
    Within A (a + c + d + 2) (out l) ((∑ ij : Fin m × Fin n, flux ij.1 ij.2 l * wt0 ij) * M0) := by
  obtain ⟨p, hp, s, hs, ho⟩ := h
  have nn : ∀ ij : Fin m × Fin n, 0 ≤ flux ij.1 ij.2 l * wt0 ij := fun ij => mul_nonneg (hf _ _ _) (hw0 _)
  have wp : ∀ ij : Fin m × Fin n, Within A (a + 1) (p (l, ij)) (flux ij.1 ij.2 l * wt0 ij) := fun ij => by
    have := Within'.mulR (hf ij.1 ij.2 l) (hw0 ij) (Within'.refl (hf _ _ _)) (hw ij) (hp (l, ij))
    rw [zero_add] at this; exact this
  have ws := sum_within nn wp (hs l)
  have := Within'.mulR (Finset.sum_nonneg fun ij _ => nn ij) hM0 ws hM (ho l)
  exact Within'.mono (mul_nonneg (Finset.sum_nonneg fun ij _ => nn ij) hM0) this (by omega)

/-- C98: the composite SED in floating point.  If the floating-point marginal weights and mass approximate those of the exact
computation to `a`, `b`, `c` roundings, the floating-point SED agrees at every wavelength with the exact
`calc_rest_sed_sfh_table_lognormal_mdf` up to `2(a+b) + c + d + e + 5` relative roundings, whatever the order in which the two sums
are evaluated (chains of at most `d` and `e` additions). -/
theorem C98_sed_lognormal [Dtype] {N k q a b c d e : ℕ} (t sfr : Fin (N + 2) → ℝ) (lgmet scatter : ℝ) (ssp_lgmet : Fin (k + 3) → ℝ)
    (ssp_lg_age : Fin (q + 3) → ℝ) (flux : Fin (k + 3) → Fin (q + 3) → Fin w → ℝ) (t_obs sfr_min : ℝ)
    (hf : ∀ i j l, 0 ≤ flux i j l)
    (hmet : IsProbVector (MetallicityWeights.calc_lgmet_weights_from_lognormal_mdf lgmet scatter ssp_lgmet))
    (hagev : IsProbVector (StellarAgeWeights.calc_age_weights_from_sfh_table t sfr ssp_lg_age t_obs SFR_MIN))
    {lg : Fin (k + 3) → ℝ} {age : Fin (q + 3) → ℝ} {M : ℝ}
    (h1 : ∀ i, Within A a (lg i) (MetallicityWeights.calc_lgmet_weights_from_lognormal_mdf lgmet scatter ssp_lgmet i))
    (h2 : ∀ j, Within A b (age j) (StellarAgeWeights.calc_age_weights_from_sfh_table t sfr ssp_lg_age t_obs SFR_MIN j))
    (h3 : Within A c M (SspWeights.mstar_obs t sfr t_obs sfr_min))
    {wt : Fin (k + 3) × Fin (q + 3) → ℝ} (hw : wt ∈ Rounded.ssp_weights A d (fun i _ => lg i) age)
    {out : Fin w → ℝ} (h : out ∈ Rounded.rest_sed A e flux wt M) (l : Fin w) :
    Within A (2 * (a + b) + c + d + e + 5) (out l)
      ((SspWeights.calc_rest_sed_sfh_table_lognormal_mdf t sfr lgmet scatter ssp_lgmet ssp_lg_age flux t_obs sfr_min).rest_sed l)
    := by
  set LG := MetallicityWeights.calc_lgmet_weights_from_lognormal_mdf lgmet scatter ssp_lgmet
  set AG := StellarAgeWeights.calc_age_weights_from_sfh_table t sfr ssp_lg_age t_obs SFR_MIN
  have hlg := hmet.1
  have hage := hagev.1
  have hpos : 0 < ∑ i, ∑ j, LG i * AG j := by
    rw [← Fintype.sum_mul_sum, hmet.2, hagev.2]; norm_num
  obtain ⟨_, w2, _⟩ := C98_joint_weights (lg0 := fun i _ => LG i) (age0 := AG) (fun i _ => hlg i) hage hpos
    (fun i _ => h1 i) h2 hw
  have hM0 : 0 ≤ SspWeights.mstar_obs t sfr t_obs sfr_min := by
    simp only [SspWeights.mstar_obs, Jnp.exp10]; positivity
  have := sed_within (wt0 := fun ij => LG ij.1 * AG ij.2 / ∑ i, ∑ j, LG i * AG j) hf
    (fun ij => div_nonneg (mul_nonneg (hlg _) (hage _)) hpos.le) (fun ij => w2 ij.1 ij.2) hM0 h3 h l
  have ev : (SspWeights.calc_rest_sed_sfh_table_lognormal_mdf t sfr lgmet scatter ssp_lgmet ssp_lg_age flux t_obs sfr_min).rest_sed l
      = (∑ ij : Fin (k + 3) × Fin (q + 3), flux ij.1 ij.2 l * (LG ij.1 * AG ij.2 / ∑ i, ∑ j, LG i * AG j))
        * SspWeights.mstar_obs t sfr t_obs sfr_min := by
    rw [Fintype.sum_prod_type]; rfl
  rw [ev]
  have e' : 2 * (a + b) + c + d + e + 5 = 2 * (a + b) + d + 3 + c + e + 2 := by omega
  rw [e']; exact this

/-- C98: the same for `calc_rest_sed_sfh_table_met_table`. -/
theorem C98_sed_met_table [Dtype] {N k q a b c d e : ℕ} (t sfr zt : Fin (N + 2) → ℝ) (scatter : ℝ) (ssp_lgmet : Fin (k + 3) → ℝ)
    (ssp_lg_age : Fin (q + 3) → ℝ) (flux : Fin (k + 3) → Fin (q + 3) → Fin w → ℝ) (t_obs sfr_min : ℝ)
    (hf : ∀ i j l, 0 ≤ flux i j l) (hs : 0 < scatter) (he : Monotone (Utils.get_bin_edges ssp_lgmet (-10) 10))
    (hagev : IsProbVector (StellarAgeWeights.calc_age_weights_from_sfh_table t sfr ssp_lg_age t_obs SFR_MIN))
    {lg : Fin (k + 3) → Fin (q + 3) → ℝ} {age : Fin (q + 3) → ℝ} {M : ℝ}
    (h1 : ∀ i j, Within A a (lg i j)
      (MetallicityWeights.calc_lgmet_weights_from_lgmet_table t zt scatter ssp_lgmet ssp_lg_age t_obs i j))
    (h2 : ∀ j, Within A b (age j) (StellarAgeWeights.calc_age_weights_from_sfh_table t sfr ssp_lg_age t_obs SFR_MIN j))
    (h3 : Within A c M (SspWeights.mstar_obs t sfr t_obs sfr_min))
    {wt : Fin (k + 3) × Fin (q + 3) → ℝ} (hw : wt ∈ Rounded.ssp_weights A d lg age)
    {out : Fin w → ℝ} (h : out ∈ Rounded.rest_sed A e flux wt M) (l : Fin w) :
    Within A (2 * (a + b) + c + d + e + 5) (out l)
      ((SspWeights.calc_rest_sed_sfh_table_met_table t sfr zt scatter ssp_lgmet ssp_lg_age flux t_obs sfr_min).rest_sed l)
    := by
  obtain ⟨hlg, hcol, _⟩ := C22_lgmet_table_weights_partial t zt scatter hs ssp_lgmet ssp_lg_age t_obs he
  set LG := MetallicityWeights.calc_lgmet_weights_from_lgmet_table t zt scatter ssp_lgmet ssp_lg_age t_obs
  set AG := StellarAgeWeights.calc_age_weights_from_sfh_table t sfr ssp_lg_age t_obs SFR_MIN
  have hage := hagev.1
  have hpos : 0 < ∑ i, ∑ j, LG i j * AG j := by
    rw [Finset.sum_comm]
    simp only [← Finset.sum_mul, hcol]
    rw [← Finset.mul_sum, hagev.2]; positivity
  obtain ⟨_, w2, _⟩ := C98_joint_weights (lg0 := LG) (age0 := AG) hlg hage hpos h1 h2 hw
  have hM0 : 0 ≤ SspWeights.mstar_obs t sfr t_obs sfr_min := by
    simp only [SspWeights.mstar_obs, Jnp.exp10]; positivity
  have := sed_within (wt0 := fun ij => LG ij.1 ij.2 * AG ij.2 / ∑ i, ∑ j, LG i j * AG j) hf
    (fun ij => div_nonneg (mul_nonneg (hlg _ _) (hage _)) hpos.le) (fun ij => w2 ij.1 ij.2) hM0 h3 h l
  have ev : (SspWeights.calc_rest_sed_sfh_table_met_table t sfr zt scatter ssp_lgmet ssp_lg_age flux t_obs sfr_min).rest_sed l
      = (∑ ij : Fin (k + 3) × Fin (q + 3), flux ij.1 ij.2 l * (LG ij.1 ij.2 * AG ij.2 / ∑ i, ∑ j, LG i j * AG j))
        * SspWeights.mstar_obs t sfr t_obs sfr_min := by
    rw [Fintype.sum_prod_type]; rfl
  rw [ev]
  have e' : 2 * (a + b) + c + d + e + 5 = 2 * (a + b) + d + 3 + c + e + 2 := by omega
  rw [e']; exact this

/-- C98: whatever non-negative marginal weights the floating-point computation arrives at, the floating-point SED is between
the faintest and the brightest SSP times the mass, up to `d + e + 5` roundings: normalisation cannot be lost. -/
theorem C98_sed_mean {d e : ℕ} {lg : Fin m → Fin n → ℝ} {age : Fin n → ℝ} (hlg : ∀ i j, 0 ≤ lg i j) (hage : ∀ j, 0 ≤ age j)
    (hpos : 0 < ∑ i, ∑ j, lg i j * age j) {flux : Fin m → Fin n → Fin w → ℝ} {lo hi : Fin w → ℝ} (hlo0 : ∀ l, 0 ≤ lo l)
    (hlo : ∀ i j l, lo l ≤ flux i j l) (hhi : ∀ i j l, flux i j l ≤ hi l) {M : ℝ} (hM : 0 ≤ M)
    {wt : Fin m × Fin n → ℝ} (hw : wt ∈ Rounded.ssp_weights A d lg age) {out : Fin w → ℝ}
    (h : out ∈ Rounded.rest_sed A e flux wt M) (l : Fin w) :
    lo l * M * (1 - A.u) ^ (d + e + 5) ≤ out l ∧ out l * (1 - A.u) ^ (d + e + 5) ≤ hi l * M := by
  obtain ⟨_, w2, _⟩ := C98_joint_weights (A := A) (a := 0) (b := 0) hlg hage hpos (fun i j => Within'.refl (hlg i j))
    (fun j => Within'.refl (hage j)) hw
  have hf : ∀ i j l, 0 ≤ flux i j l := fun i j l => (hlo0 l).trans (hlo i j l)
  have := sed_within (wt0 := fun ij => lg ij.1 ij.2 * age ij.2 / ∑ i, ∑ j, lg i j * age j) hf
    (fun ij => div_nonneg (mul_nonneg (hlg _ _) (hage _)) hpos.le) (fun ij => w2 ij.1 ij.2) hM (Within'.refl hM) h l
  have e' : 2 * (0 + 0) + d + 3 + 0 + e + 2 = d + e + 5 := by omega
  rw [e'] at this
  have s1 : ∑ ij : Fin m × Fin n, lg ij.1 ij.2 * age ij.2 / ∑ i, ∑ j, lg i j * age j = 1 := by
    rw [← Finset.sum_div, Fintype.sum_prod_type]; exact div_self hpos.ne'
  have wn : ∀ ij : Fin m × Fin n, 0 ≤ lg ij.1 ij.2 * age ij.2 / ∑ i, ∑ j, lg i j * age j :=
    fun ij => div_nonneg (mul_nonneg (hlg _ _) (hage _)) hpos.le
  have b1 : lo l ≤ ∑ ij : Fin m × Fin n, flux ij.1 ij.2 l * (lg ij.1 ij.2 * age ij.2 / ∑ i, ∑ j, lg i j * age j) := by
    calc lo l = ∑ ij : Fin m × Fin n, lo l * (lg ij.1 ij.2 * age ij.2 / ∑ i, ∑ j, lg i j * age j) := by
          rw [← Finset.mul_sum, s1, mul_one]
      _ ≤ _ := Finset.sum_le_sum fun ij _ => mul_le_mul_of_nonneg_right (hlo _ _ _) (wn ij)
  have b2 : ∑ ij : Fin m × Fin n, flux ij.1 ij.2 l * (lg ij.1 ij.2 * age ij.2 / ∑ i, ∑ j, lg i j * age j) ≤ hi l := by
    calc _ ≤ ∑ ij : Fin m × Fin n, hi l * (lg ij.1 ij.2 * age ij.2 / ∑ i, ∑ j, lg i j * age j) :=
          Finset.sum_le_sum fun ij _ => mul_le_mul_of_nonneg_right (hhi _ _ _) (wn ij)
      _ = hi l := by rw [← Finset.mul_sum, s1, mul_one]
  exact ⟨(mul_le_mul_of_nonneg_right (mul_le_mul_of_nonneg_right b1 hM) (qp_pos A _).le).trans this.1,
    this.2.trans (mul_le_mul_of_nonneg_right b2 hM)⟩

/-- the hypotheses of C98 are met, in float32 arithmetic with sequential sums -/
example : ∃ (lg : Fin 2 → Fin 2 → ℝ) (age : Fin 2 → ℝ) (wt : Fin 2 × Fin 2 → ℝ) (out : Fin 3 → ℝ),
    (∀ i j, 0 ≤ lg i j) ∧ (∀ j, 0 ≤ age j) ∧ 0 < ∑ i, ∑ j, lg i j * age j ∧
    wt ∈ Rounded.ssp_weights (binary 24 (by norm_num)) 4 lg age ∧
    out ∈ Rounded.rest_sed (binary 24 (by norm_num)) 4 (fun _ _ _ => 7) wt 1e10 := by
  obtain ⟨wt, h1⟩ := ssp_weights_nonempty (m := 2) (n := 2) (binary_nonempty 24 (by norm_num)) (fun _ _ => 1) (fun _ => 2) (d := 4) le_rfl
  obtain ⟨out, h2⟩ := rest_sed_nonempty (m := 2) (n := 2) (w := 3) (binary_nonempty 24 (by norm_num)) (fun _ _ _ => 7) wt 1e10 (d := 4) le_rfl
  exact ⟨_, _, wt, out, fun _ _ => zero_le_one, fun _ => zero_le_two, by norm_num [Fin.sum_univ_two], h1, h2⟩

/-! ## C99 -/

lemma flux_ab0_nonneg {wv tr : Fin (m + 1) → ℝ} (hw : Monotone wv) (hw0 : ∀ i, 0 < wv i) (ht : ∀ i, 0 ≤ tr i) :
    0 ≤ Photometry.flux_ab0_at_10pc wv tr := by
  simp only [Photometry.flux_ab0_at_10pc]
  rw [trapz_eq]
  refine Finset.sum_nonneg fun i _ => ?_
  have g : ∀ i, 0 ≤ tr i * Photometry.AB0 / wv i := fun i => div_nonneg (mul_nonneg (ht i) AB0_pos.le) (hw0 i).le
  have := mul_nonneg (sub_nonneg.mpr (hw (Fin.castSucc_lt_succ (i := i)).le)) (add_nonneg (g i.castSucc) (g i.succ))
  linarith

/-- C99: the AB flux from given non-negative luminosities is accurate to `k + 2 d + 14` roundings, *relative to the result*
(`k` = accuracy of the luminosities, `d` = longest chain of additions in the two integrals): no cancellation. -/
theorem C99_flux_relative {k d : ℕ} {wv tr lum lum0 : Fin (m + 1) → ℝ} (hw : Monotone wv) (hw0 : ∀ i, 0 < wv i)
    (ht : ∀ i, 0 ≤ tr i) (hl : ∀ i, 0 ≤ lum0 i) (h : ∀ i, Within A k (lum i) (lum0 i)) {r : ℝ}
    (hr : r ∈ Rounded.calc_rest_flux_of_lum A d wv tr lum) :
    Within A (k + 2 * d + 14) r
      (Utils.trapz wv (fun i => tr i * lum0 i / wv i) / Photometry.flux_ab0_at_10pc wv tr) := by
  obtain ⟨a, h1, b, h2, h3⟩ := hr
  have w1 := filter_flux_within hw hw0 ht hl h h1
  have w2 := flux_ab0_within hw hw0 ht h2
  have n1 : 0 ≤ Utils.trapz wv (fun i => tr i * lum0 i / wv i) := by
    rw [trapz_eq]
    refine Finset.sum_nonneg fun i _ => ?_
    have g : ∀ i, 0 ≤ tr i * lum0 i / wv i := fun i => div_nonneg (mul_nonneg (ht i) (hl i)) (hw0 i).le
    have := mul_nonneg (sub_nonneg.mpr (hw (Fin.castSucc_lt_succ (i := i)).le)) (add_nonneg (g i.castSucc) (g i.succ))
    linarith
  have := Within'.divR n1 (flux_ab0_nonneg hw hw0 ht) w1 w2 h3
  exact Within'.mono (div_nonneg n1 (flux_ab0_nonneg hw hw0 ht)) this (by omega)

/-- C99: the full floating-point `calc_rest_flux`, interpolation of the spectrum included.  For a spectrum with luminosities in
`[0, L]` the error is at most `(1/(1-u))^(2d+20) - 1` times `L / AB0`, the AB flux of a flat spectrum of luminosity `L`. -/
theorem C99_flux_absolute [Dtype] {d : ℕ} {L : ℝ} {ws ls : Fin (n + 2) → ℝ} {wv tr : Fin (m + 1) → ℝ} (hws : Monotone ws)
    (hres : ∀ i : Fin (n + 1), Dtype.interpEps < (ws i.succ - ws i.castSucc) * (1 - A.u))
    (hls0 : ∀ i, 0 ≤ ls i) (hlsL : ∀ i, ls i ≤ L) (hw : Monotone wv) (hw0 : ∀ i, 0 < wv i) (ht : ∀ i, 0 ≤ tr i)
    (hlive : 0 < Photometry.flux_ab0_at_10pc wv tr) {r : ℝ} (hr : r ∈ Rounded.calc_rest_flux A d ws ls wv tr) :
    |r - Photometry.calc_rest_flux ws ls wv tr| ≤ ((1 / (1 - A.u)) ^ (2 * d + 20) - 1) * (L / Photometry.AB0) := by
  obtain ⟨lum, h0, a, h1, b, h2, h3⟩ := hr
  have nl : ∀ i, Near A 6 (lum i) (interpLR (wv i) ws ls 0 0) L := fun i => interp0_near hws hres hls0 hlsL (h0 i)
  have w1 := filter_flux_near hw hw0 ht nl h1
  have w2 := flux_ab0_within hw hw0 ht h2
  have w3 := (w1.divR hlive.le w2 h3).mono (show 6 + d + 6 + (d + 7) + 1 ≤ 2 * d + 20 by omega)
  have e : Utils.trapz wv (fun i => tr i * L / wv i) / Photometry.flux_ab0_at_10pc wv tr = L / Photometry.AB0 := by
    have e1 : Utils.trapz wv (fun i => tr i * L / wv i) * Photometry.AB0
        = L * Photometry.flux_ab0_at_10pc wv tr := by
      simp only [Photometry.flux_ab0_at_10pc]
      rw [trapz_eq, trapz_eq, Finset.sum_mul, Finset.mul_sum]
      exact Finset.sum_congr rfl fun i _ => by ring
    rw [div_eq_div_iff hlive.ne' AB0_pos.ne', e1]
  rw [e] at w3
  exact w3.2

lemma flux_ge [Dtype] {lo : ℝ} {ws ls : Fin (n + 2) → ℝ} {wv tr : Fin (m + 1) → ℝ} (hws : Monotone ws)
    (hlo : ∀ i, lo ≤ ls i) (hw : Monotone wv) (hw0 : ∀ i, 0 < wv i) (ht : ∀ i, 0 ≤ tr i)
    (hcov : ∀ i, ws 0 ≤ wv i ∧ wv i ≤ ws (Fin.last (n + 1))) (hlive : 0 < Photometry.flux_ab0_at_10pc wv tr) :
    lo / Photometry.AB0 ≤ Photometry.calc_rest_flux ws ls wv tr := by
  have hl : ∀ i, lo ≤ interpLR (wv i) ws ls 0 0 := by
    intro i
    rw [interp_of_mem (hcov i).1 (hcov i).2]
    obtain ⟨s, s0, s1, hs⟩ := interpBody_convex hws (hcov i).1 (hcov i).2
    rw [hs]
    nlinarith [mul_le_mul_of_nonneg_left (hlo (interpCell ws (wv i)).castSucc) (show 0 ≤ 1 - s by linarith),
      mul_le_mul_of_nonneg_left (hlo (interpCell ws (wv i)).succ) s0]
  simp only [Photometry.calc_rest_flux, Photometry.rest_flux_ssp]
  rw [div_le_div_iff₀ AB0_pos hlive]
  have e1 : lo * Photometry.flux_ab0_at_10pc wv tr
      = ∑ i : Fin m, (wv i.succ - wv i.castSucc) * (tr i.castSucc * lo / wv i.castSucc + tr i.succ * lo / wv i.succ) / 2
        * Photometry.AB0 := by
    simp only [Photometry.flux_ab0_at_10pc]
    rw [trapz_eq, Finset.mul_sum]
    exact Finset.sum_congr rfl fun i _ => by ring
  rw [e1, trapz_eq, Finset.sum_mul]
  refine Finset.sum_le_sum fun i _ => mul_le_mul_of_nonneg_right ?_ AB0_pos.le
  have g : ∀ i, tr i * lo / wv i ≤ tr i * interpLR (wv i) ws ls 0 0 / wv i := fun i =>
    div_le_div_of_nonneg_right (mul_le_mul_of_nonneg_left (hl i) (ht i)) (hw0 i).le
  have := mul_le_mul_of_nonneg_left (add_le_add (g i.castSucc) (g i.succ))
    (sub_nonneg.mpr (hw (Fin.castSucc_lt_succ (i := i)).le))
  linarith

lemma log10_close {f F δ : ℝ} (hF : 0 < F) (hδ : δ < 1) (h : |f - F| ≤ δ * F) :
    0 < f ∧ |Jnp.log10 f - Jnp.log10 F| ≤ -Jnp.log10 (1 - δ) := by
  have hb := abs_le.mp h
  have hδ0 : 0 ≤ δ := by
    by_contra hc
    push Not at hc
    have := (abs_nonneg _).trans h
    nlinarith
  have h1 : F * (1 - δ) ≤ f := by linarith [hb.1]
  have hf : 0 < f := lt_of_lt_of_le (mul_pos hF (by linarith)) h1
  have h2 : f * (1 - δ) ≤ F := by
    have : f ≤ F * (1 + δ) := by linarith [hb.2]
    calc f * (1 - δ) ≤ F * (1 + δ) * (1 - δ) := mul_le_mul_of_nonneg_right this (by linarith)
      _ ≤ F := by nlinarith [mul_nonneg hF.le (mul_nonneg hδ0 hδ0)]
  refine ⟨hf, ?_⟩
  have hq : 0 < 1 - δ := by linarith
  have ten : (1:ℝ) < 10 := by norm_num
  have l1 : Jnp.log10 F + Jnp.log10 (1 - δ) ≤ Jnp.log10 f := by
    unfold Jnp.log10; rw [← Real.logb_mul hF.ne' hq.ne']; exact Real.logb_le_logb_of_le ten (mul_pos hF hq) h1
  have l2 : Jnp.log10 f + Jnp.log10 (1 - δ) ≤ Jnp.log10 F := by
    unfold Jnp.log10; rw [← Real.logb_mul hf.ne' hq.ne']; exact Real.logb_le_logb_of_le ten (mul_pos hf hq) h2
  rw [abs_le]; constructor <;> linarith

/-- C99, magnitudes: a spectrum with luminosities between `lo > 0` and `L` that covers a live filter.  With
`δ = ((1/(1-u))^(2d+20) - 1) L / lo` the relative accuracy of the flux, the floating-point rest-frame magnitude (library `log10`
accurate to `v`) differs from the exact one by at most `2.5 log10(1/(1-δ))` magnitudes plus the rounding of the final two operations. -/
theorem C99_mag [Dtype] {d : ℕ} {v lo L : ℝ} {ws ls : Fin (n + 2) → ℝ} {wv tr : Fin (m + 1) → ℝ} (hv : 0 ≤ v)
    (hws : Monotone ws) (hres : ∀ i : Fin (n + 1), Dtype.interpEps < (ws i.succ - ws i.castSucc) * (1 - A.u))
    (hlo0 : 0 < lo) (hlo : ∀ i, lo ≤ ls i) (hlsL : ∀ i, ls i ≤ L) (hw : Monotone wv) (hw0 : ∀ i, 0 < wv i)
    (ht : ∀ i, 0 ≤ tr i) (hcov : ∀ i, ws 0 ≤ wv i ∧ wv i ≤ ws (Fin.last (n + 1)))
    (hlive : 0 < Photometry.flux_ab0_at_10pc wv tr) (hδ : ((1 / (1 - A.u)) ^ (2 * d + 20) - 1) * (L / lo) < 1)
    {r : ℝ} (hr : r ∈ Rounded.calc_rest_mag A v d ws ls wv tr) :
    |r - Photometry.calc_rest_mag ws ls wv tr| ≤
      ((1 + v) * (1 + A.u) - 1) * |Photometry.calc_rest_mag ws ls wv tr|
      + (1 + v) * (1 + A.u) * (2.5 * -Jnp.log10 (1 - ((1 / (1 - A.u)) ^ (2 * d + 20) - 1) * (L / lo))) := by
  obtain ⟨f, hf, l, hl, hr⟩ := hr
  set F := Photometry.calc_rest_flux ws ls wv tr with hF
  set δ := ((1 / (1 - A.u)) ^ (2 * d + 20) - 1) * (L / lo) with hδd
  have hFlo := flux_ge hws hlo hw hw0 ht hcov hlive
  rw [← hF] at hFlo
  have hFpos : 0 < F := lt_of_lt_of_le (div_pos hlo0 AB0_pos) hFlo
  have hG : 0 ≤ (1 / (1 - A.u)) ^ (2 * d + 20) - 1 := by linarith [Gp_ge A (2 * d + 20)]
  have hL : 0 ≤ L := hlo0.le.trans ((hlo 0).trans (hlsL 0))
  have hrel : |f - F| ≤ δ * F := by
    refine (C99_flux_absolute hws hres (fun i => hlo0.le.trans (hlo i)) hlsL hw hw0 ht hlive hf).trans ?_
    rw [hδd, mul_assoc]
    refine mul_le_mul_of_nonneg_left ?_ hG
    calc L / Photometry.AB0 = L / lo * (lo / Photometry.AB0) := by field_simp
      _ ≤ L / lo * F := mul_le_mul_of_nonneg_left hFlo (div_nonneg hL hlo0.le)
  obtain ⟨_, hlog⟩ := log10_close hFpos hδ hrel
  have hmag : Photometry.calc_rest_mag ws ls wv tr = -2.5 * Jnp.log10 F := rfl
  rw [hmag]
  have hr' := A.rel _ _ hr
  have hu := A.u_nonneg
  set x := Jnp.log10 f
  set X := Jnp.log10 F
  set lam := -Jnp.log10 (1 - δ)
  have a1 : |x| ≤ |X| + lam := by
    have := abs_sub_abs_le_abs_sub x X; linarith
  have a2 : |l - X| ≤ v * |x| + lam := (abs_sub_le l x X).trans (add_le_add hl hlog)
  have a3 : |l| ≤ (1 + v) * |x| := by have := abs_sub_abs_le_abs_sub l x; linarith
  have c25 : |(-2.5 : ℝ) * l| = 2.5 * |l| := by rw [abs_mul]; norm_num
  have c26 : |(-2.5 : ℝ) * X| = 2.5 * |X| := by rw [abs_mul]; norm_num
  have c27 : |(-2.5 : ℝ) * l - -2.5 * X| = 2.5 * |l - X| := by rw [← mul_sub, abs_mul]; norm_num
  rw [c25] at hr'
  rw [c26]
  have tri := abs_sub_le r (-2.5 * l) (-2.5 * X)
  rw [c27] at tri
  have b1 : v * |x| ≤ v * (|X| + lam) := mul_le_mul_of_nonneg_left a1 hv
  have b2 : |l| ≤ (1 + v) * (|X| + lam) := a3.trans (mul_le_mul_of_nonneg_left a1 (by linarith))
  have b3 : A.u * (2.5 * |l|) ≤ A.u * (2.5 * ((1 + v) * (|X| + lam))) :=
    mul_le_mul_of_nonneg_left (mul_le_mul_of_nonneg_left b2 (by norm_num)) hu
  norm_num at *
  nlinarith

/-- the hypotheses of C99 are met: a four-point filter inside a flat three-point spectrum, float32 -/
example : letI := Dtype.float32
    ∃ (ws ls : Fin 3 → ℝ) (wv tr : Fin 4 → ℝ) (r : ℝ), Monotone ws ∧
    (∀ i : Fin 2, Dtype.interpEps < (ws i.succ - ws i.castSucc) * (1 - (binary 24 (by norm_num)).u)) ∧ (∀ i, 1 ≤ ls i) ∧
    (∀ i, ls i ≤ 2) ∧ Monotone wv ∧ (∀ i, 0 < wv i) ∧ (∀ i, 0 ≤ tr i) ∧ (∀ i, ws 0 ≤ wv i ∧ wv i ≤ ws 2) ∧
    0 < Photometry.flux_ab0_at_10pc wv tr ∧
    ((1 / (1 - (binary 24 (by norm_num)).u)) ^ (2 * 3 + 20) - 1) * (2 / 1 : ℝ) < 1 ∧
    r ∈ Rounded.calc_rest_mag (binary 24 (by norm_num)) 1e-6 3 ws ls wv tr := by
  letI := Dtype.float32
  obtain ⟨f, hf⟩ := rest_flux_nonempty (n := 1) (m := 3) (binary_nonempty 24 (by norm_num)) ![1000, 5000, 10000] ![1, 2, 1]
    ![4000, 5000, 6000, 7000] ![0, 1, 1, 0] (d := 3) le_rfl
  obtain ⟨r, hr⟩ := binary_nonempty 24 (by norm_num) (-2.5 * Jnp.log10 f)
  have hu : (binary 24 (by norm_num)).u = (1 / 2) ^ 24 := rfl
  refine ⟨![1000, 5000, 10000], ![1, 2, 1], ![4000, 5000, 6000, 7000], ![0, 1, 1, 0], r, ?_, ?_, ?_, ?_, ?_, ?_, ?_, ?_, ?_,
    ?_, f, hf, Jnp.log10 f, by rw [sub_self, abs_zero]; positivity, hr⟩
  · rw [Fin.monotone_iff_le_succ]; intro i; fin_cases i <;> simp <;> norm_num
  · intro i; rw [hu]; fin_cases i <;> simp [Dtype.interpEps] <;> norm_num
  · intro i; fin_cases i <;> simp
  · intro i; fin_cases i <;> simp
  · rw [Fin.monotone_iff_le_succ]; intro i; fin_cases i <;> simp <;> norm_num
  · intro i; fin_cases i <;> simp
  · intro i; fin_cases i <;> simp
  · intro i; fin_cases i <;> simp <;> norm_num
  · simp only [Photometry.flux_ab0_at_10pc, Photometry.AB0]
    rw [trapz_eq]; simp [Fin.sum_univ_succ]; norm_num
  · rw [hu]; norm_num

end Dsps.Props
