import Verif.Lemmas.RoundSed
import Verif.Lemmas.RoundCosmoQuad
import Verif.Model.RoundedObs
import Mathlib.Analysis.Convex.SpecificFunctions.Basic

/-! Local error analysis of interpolation: rounding inside a cell, and rounding of the grid. -/
namespace Dsps.Lemmas
open Jnp Fl Spec

variable {A P : Arith} {η v : ℝ} {n m : ℕ} [Dtype]

/-- **Specification.**  Neighbouring entries of a positive table differ by at most a factor `Q`. -/
def Contrast (Q : ℝ) (f : Fin (n + 2) → ℝ) : Prop := ∀ i : Fin (n + 1), f i.succ ≤ Q * f i.castSucc ∧ f i.castSucc ≤ Q * f i.succ

/-- **Specification.**  The logarithmic slope `dlog f / dlog x` of the piecewise linear curve through `(x i, f i)` is at most `Λ` in absolute
value, at both ends of every segment. -/
def LogSlope (Λ : ℝ) (x f : Fin (n + 2) → ℝ) : Prop := ∀ i : Fin (n + 1), ∀ j, j = i.castSucc ∨ j = i.succ →
  |f i.succ - f i.castSucc| * x j ≤ Λ * (x i.succ - x i.castSucc) * f j

/-- `(1/(1-u))^k - 1` in terms of the tolerance -/
lemma G_pow_le (ht : Tol η A.u) (k : ℕ) : (1 / (1 - A.u)) ^ k ≤ Real.exp (k * η) := by
  have h1 : 1 / (1 - A.u) ≤ Real.exp η := by
    rw [div_le_iff₀ (q_pos A)]
    have := mul_le_mul_of_nonneg_left ht.2 (Real.exp_pos η).le
    rwa [← Real.exp_add, add_neg_cancel, Real.exp_zero] at this
  calc _ ≤ (Real.exp η) ^ k := pow_le_pow_left₀ (by linarith [G_ge A]) h1 k
    _ = _ := by rw [← Real.exp_nat_mul]

/-- machine interpolation of a positive table inside its range: an error of 6 roundings times the contrast of neighbouring entries -/
lemma close_interp0 (ht : Tol η A.u) {xp fp : Fin (n + 2) → ℝ} {Q x r : ℝ} (hx : Monotone xp)
    (hres : ∀ i : Fin (n + 1), Dtype.interpEps < (xp i.succ - xp i.castSucc) * (1 - A.u)) (hf : ∀ i, 0 < fp i) (hQ : Contrast Q fp)
    (hsmall : Q * η ≤ 0.0016) (hin : xp 0 ≤ x ∧ x ≤ xp (Fin.last (n + 1))) (hr : r ∈ Rounded.interp0 A x xp fp) :
    Close (6.2 * Q * η) r (Jnp.interpLR x xp fp 0 0) := by
  rcases hr with ⟨h, rfl⟩ | ⟨h, h', rfl⟩ | ⟨h, h', hb⟩
  · exact absurd hin.2 (not_le.2 h)
  · exact absurd hin.1 (not_le.2 h')
  unfold interpLR; rw [if_neg h, if_neg h']
  obtain ⟨df, e1, dx, e2, dl, e3, hb⟩ := hb
  have hl := interpCell_left hx (not_lt.1 h')
  have hrr := interpCell_right hx (not_lt.1 h)
  set i := interpCell xp x with hi
  have hdx0 : 0 < xp i.succ - xp i.castSucc := by
    have := hres i
    have hq := q_pos A
    have he := Dtype.interpEps_nonneg
    by_contra hc
    push Not at hc
    nlinarith
  have wdx := Within'.rndR hdx0.le e2
  have hdxp := Within'.pos hdx0 wdx
  have hguard : ¬ |dx| ≤ Dtype.interpEps := by
    rw [abs_of_pos hdxp]
    have := wdx.1
    rw [pow_one] at this
    linarith [hres i]
  have hguard' : ¬ |xp i.succ - xp i.castSucc| ≤ Dtype.interpEps := by
    rw [abs_of_pos hdx0]
    have := hres i
    have hu := A.u_nonneg
    nlinarith
  rcases hb with ⟨hg, _⟩ | ⟨_, q, e4, p, e5, e6⟩
  · exact absurd hg hguard
  have hdl : 0 ≤ x - xp i.castSucc := sub_nonneg.mpr hl
  have wdl := Within'.rndR hdl e3
  have wq := Within'.divR hdl hdx0.le wdl wdx e4
  have f0 := hf i.castSucc
  have f1 := hf i.succ
  set S := max (fp i.castSucc) (fp i.succ) with hS
  have s0 : fp i.castSucc ≤ S := le_max_left _ _
  have s1 : fp i.succ ≤ S := le_max_right _ _
  have hdf : |fp i.succ - fp i.castSucc| ≤ S := by rw [abs_le]; constructor <;> linarith
  have ndf : Near A 1 df (fp i.succ - fp i.castSucc) S := Near.subR hdf e1
  have np := (Near.of_within (div_nonneg hdl hdx0.le) wq).mulR ndf e5
  set t := (x - xp i.castSucc) / (xp i.succ - xp i.castSucc) with ht'
  have ht1 : t ≤ 1 := by rw [ht', div_le_one hdx0]; linarith
  have ht0 : 0 ≤ t := div_nonneg hdl hdx0.le
  have np' := np.mono_M (show t * S ≤ S by nlinarith)
  have hval : Jnp.interpBody x xp fp = fp i.castSucc + t * (fp i.succ - fp i.castSucc) := by
    unfold Jnp.interpBody
    simp only [← hi]
    rw [if_neg hguard']
  have e : fp i.castSucc + t * (fp i.succ - fp i.castSucc) = (1 - t) * fp i.castSucc + t * fp i.succ := by ring
  rw [hval]
  set w := fp i.castSucc + t * (fp i.succ - fp i.castSucc) with hw
  have hwS : w ≤ S := by rw [e]; nlinarith
  have hw0 : 0 < w := by
    rw [e]
    rcases eq_or_lt_of_le ht0 with h0 | h0
    · rw [← h0]; linarith
    · have := mul_pos h0 f1
      nlinarith [mul_nonneg (sub_nonneg.2 ht1) f0.le]
  have hSw : S ≤ Q * w := by
    obtain ⟨q1, q2⟩ := hQ i
    have hQ1 : 1 ≤ Q := by
      by_contra hc
      push Not at hc
      nlinarith
    rw [hS, e]
    have u1 : 0 ≤ 1 - t := by linarith
    refine max_le ?_ ?_
    · have a1 := mul_le_mul_of_nonneg_left (le_mul_of_one_le_left f0.le hQ1) u1
      have a2 := mul_le_mul_of_nonneg_left q2 ht0
      linarith
    · have a1 := mul_le_mul_of_nonneg_left q1 u1
      have a2 := mul_le_mul_of_nonneg_left (le_mul_of_one_le_left f1.le hQ1) ht0
      linarith
  have n5 : Near A 5 (fp i.castSucc + p) w S := by
    refine ⟨by rw [abs_of_pos hw0]; exact hwS, ?_⟩
    have : fp i.castSucc + p - w = p - t * (fp i.succ - fp i.castSucc) := by rw [hw]; ring
    rw [this]
    exact np'.2
  have n6 := (n5.rnd e6).2
  have hη := ht.nonneg
  have hQ0 : 1 ≤ Q := by
    by_contra hc
    push Not at hc
    have := hw0.trans_le hwS
    nlinarith
  have hη1 : η ≤ 0.0016 := by norm_num at hsmall ⊢; nlinarith
  have hG : (1 / (1 - A.u)) ^ 6 - 1 ≤ 6.06 * η := by
    have h1 := G_pow_le ht 6
    have h2 := exp_sub_one_le (x := (6:ℕ) * η) (c := 0.0096) (by positivity) (by push_cast; norm_num at hη1 ⊢; linarith) (by push_cast; norm_num at hη1 ⊢; linarith)
    push_cast at h1 h2
    refine (sub_le_sub_right h1 1).trans (h2.trans ?_)
    norm_num; linarith
  refine (Close.of_small (κ := 6.06 * Q * η) hw0.le (by positivity) (by norm_num at hsmall ⊢; linarith) (n6.trans ?_)).mono ?_
  · calc ((1 / (1 - A.u)) ^ (5 + 1) - 1) * S ≤ (6.06 * η) * (Q * w) := mul_le_mul hG hSw (by linarith) (by positivity)
      _ = _ := by ring
  · have : 0 ≤ Q * η := by positivity
    norm_num; linarith

/-- the interpolant on one segment, in logarithms -/
lemma segment_log {x0 x1 f0 f1 Λ x y : ℝ} (hΛ : 1 ≤ Λ) (hx0 : 0 < x0) (hf0 : 0 < f0) (hf1 : 0 < f1) (hxx : x0 < x1)
    (h0 : |f1 - f0| * x0 ≤ Λ * (x1 - x0) * f0) (h1 : |f1 - f0| * x1 ≤ Λ * (x1 - x0) * f1) (hx : x0 ≤ x) (hxy : x ≤ y) (hy : y ≤ x1) {F : ℝ → ℝ}
    (hF : ∀ s, x0 ≤ s → s ≤ x1 → F s = f0 + (s - x0) / (x1 - x0) * (f1 - f0)) :
    |Real.log (F y) - Real.log (F x)| ≤ Λ * (Real.log y - Real.log x) := by
  have hd : 0 < x1 - x0 := by linarith
  have hxp : 0 < x := by linarith
  have hyp : 0 < y := by linarith
  set σ := (f1 - f0) / (x1 - x0) with hσ
  have hF' : ∀ s, x0 ≤ s → s ≤ x1 → F s = f0 + (s - x0) * σ := fun s a b => by rw [hF s a b, hσ]; ring
  have c0 : |σ| * x0 ≤ Λ * f0 := by
    rw [hσ, abs_div, abs_of_pos hd, div_mul_eq_mul_div, div_le_iff₀ hd]; linarith
  have hf1' : f1 = f0 + (x1 - x0) * σ := by rw [hσ]; field_simp; ring
  have c1 : |σ| * x1 ≤ Λ * f1 := by
    rw [hσ, abs_div, abs_of_pos hd, div_mul_eq_mul_div, div_le_iff₀ hd]; linarith
  have pos : ∀ s, x0 ≤ s → s ≤ x1 → 0 < F s ∧ |σ| * s ≤ Λ * F s := by
    intro s a b
    have e : F s = (1 - (s - x0) / (x1 - x0)) * f0 + (s - x0) / (x1 - x0) * f1 := by rw [hF s a b]; ring
    have es : s = (1 - (s - x0) / (x1 - x0)) * x0 + (s - x0) / (x1 - x0) * x1 := by
      have := div_mul_cancel₀ (s - x0) hd.ne'
      linarith
    set τ := (s - x0) / (x1 - x0) with hτ
    have t0 : 0 ≤ τ := div_nonneg (by linarith) hd.le
    have t1 : τ ≤ 1 := by rw [hτ, div_le_one hd]; linarith
    constructor
    · rw [e]
      rcases eq_or_lt_of_le t0 with h | h
      · rw [← h]; linarith
      · have := mul_pos h hf1
        nlinarith [mul_nonneg (sub_nonneg.2 t1) hf0.le]
    · rw [e]
      calc |σ| * s = (1 - τ) * (|σ| * x0) + τ * (|σ| * x1) := by
            conv_lhs => rw [es]
            ring
        _ ≤ (1 - τ) * (Λ * f0) + τ * (Λ * f1) := by
          have a1 := mul_le_mul_of_nonneg_left c0 (sub_nonneg.2 t1)
          have a2 := mul_le_mul_of_nonneg_left c1 t0
          linarith
        _ = _ := by ring
  obtain ⟨px, sx⟩ := pos x hx (hxy.trans hy)
  obtain ⟨py, sy⟩ := pos y (hx.trans hxy) hy
  have hdiff : F y - F x = (y - x) * σ := by rw [hF' x hx (hxy.trans hy), hF' y (hx.trans hxy) hy]; ring
  have bern : 1 + Λ * (y / x - 1) ≤ (y / x) ^ Λ := by
    have h1 : 1 ≤ y / x := by rw [le_div_iff₀ hxp]; linarith
    have := one_add_mul_self_le_rpow_one_add (s := y / x - 1) (by linarith) hΛ
    rwa [add_sub_cancel] at this
  have elog : Λ * (Real.log y - Real.log x) = Real.log ((y / x) ^ Λ) := by
    rw [Real.log_rpow (div_pos hyp hxp), Real.log_div hyp.ne' hxp.ne']
  have habs : |F y - F x| ≤ (y - x) * |σ| := by rw [hdiff, abs_mul, abs_of_nonneg (by linarith)]
  rw [elog, abs_le]
  have hpw : 0 < (y / x) ^ Λ := Real.rpow_pos_of_pos (div_pos hyp hxp) _
  -- F x ≤ F y (y/x)^Λ and F y ≤ F x (y/x)^Λ
  have up : F y ≤ F x * (y / x) ^ Λ := by
    have h2 : F y ≤ F x * (1 + Λ * (y / x - 1)) := by
      have h3 : (y - x) * |σ| ≤ Λ * (y / x - 1) * F x := by
        have e : y - x = x * (y / x - 1) := by field_simp
        have h4 : 0 ≤ y / x - 1 := by rw [sub_nonneg, le_div_iff₀ hxp]; linarith
        have := mul_le_mul_of_nonneg_left sx h4
        calc (y - x) * |σ| = (y / x - 1) * (|σ| * x) := by rw [e]; ring
          _ ≤ _ := by linarith
      have := (abs_le.1 habs).2
      linarith
    exact h2.trans (mul_le_mul_of_nonneg_left bern px.le)
  have dn : F x ≤ F y * (y / x) ^ Λ := by
    have h2 : F x ≤ F y * (1 + Λ * (y / x - 1)) := by
      have h3 : (y - x) * |σ| ≤ Λ * (y / x - 1) * F y := by
        have h4 : 0 ≤ y / x - 1 := by rw [sub_nonneg, le_div_iff₀ hxp]; linarith
        have h5 : y - x ≤ (y / x - 1) * y := by
          have e : y - x = x * (y / x - 1) := by field_simp
          rw [e]
          nlinarith
        have h6 := mul_le_mul_of_nonneg_right h5 (abs_nonneg σ)
        have := mul_le_mul_of_nonneg_left sy h4
        linarith
      have := (abs_le.1 habs).1
      linarith
    exact h2.trans (mul_le_mul_of_nonneg_left bern py.le)
  have l1 := Real.log_le_log py up
  have l2 := Real.log_le_log px dn
  rw [Real.log_mul px.ne' hpw.ne'] at l1
  rw [Real.log_mul py.ne' hpw.ne'] at l2
  constructor <;> linarith

/-- the interpolant of a table with bounded logarithmic slope -/
lemma interp_logLip {xp fp : Fin (n + 2) → ℝ} (hr : Resolved xp) {Λ : ℝ} (hΛ : 1 ≤ Λ) (hx0 : 0 < xp 0) (hf : ∀ i, 0 < fp i) (hs : LogSlope Λ xp fp)
    {x y : ℝ} (hx : xp 0 ≤ x) (hxy : x ≤ y) (hy : y ≤ xp (Fin.last (n + 1))) :
    |Real.log (interp y xp fp) - Real.log (interp x xp fp)| ≤ Λ * (Real.log y - Real.log x) := by
  have hm := hr.strictMono.monotone
  have pos : ∀ j, 0 < xp j := fun j => hx0.trans_le (hm (Fin.zero_le j))
  have seg : ∀ (i : Fin (n + 1)) {a b : ℝ}, xp i.castSucc ≤ a → a ≤ b → b ≤ xp i.succ →
      |Real.log (interp b xp fp) - Real.log (interp a xp fp)| ≤ Λ * (Real.log b - Real.log a) := fun i a b h1 h2 h3 =>
    segment_log hΛ (pos _) (hf _) (hf _) (hr.strictMono Fin.castSucc_lt_succ) (hs i _ (Or.inl rfl)) (hs i _ (Or.inr rfl)) h1 h2 h3
      (F := fun s => interp s xp fp) (fun s a b => interp_cell hr fp i a b)
  -- both signs at once: `c log f + Λ log x` is increasing
  have key : ∀ c : ℝ, |c| ≤ 1 → c * (Real.log (interp x xp fp) - Real.log (interp y xp fp)) ≤ Λ * (Real.log y - Real.log x) := by
    intro c hc
    let G : ℝ → ℝ := fun s => c * Real.log (interp s xp fp) + Λ * Real.log s
    have Gseg : ∀ (i : Fin (n + 1)) {a b : ℝ}, xp i.castSucc ≤ a → a ≤ b → b ≤ xp i.succ → G a ≤ G b := fun i a b h1 h2 h3 => by
      have h4 := seg i h1 h2 h3
      have h5 : c * (Real.log (interp a xp fp) - Real.log (interp b xp fp)) ≤ |Real.log (interp b xp fp) - Real.log (interp a xp fp)| := by
        refine (le_abs_self _).trans ?_
        rw [abs_mul, abs_sub_comm]
        exact mul_le_of_le_one_left (abs_nonneg _) hc
      show c * _ + Λ * _ ≤ c * _ + Λ * _
      linarith
    have Gnode : Monotone fun j => G (xp j) := Fin.monotone_iff_le_succ.2 fun i => Gseg i le_rfl (hm (Fin.castSucc_lt_succ).le) le_rfl
    have hcell : ∀ s, xp 0 ≤ s → s ≤ xp (Fin.last (n + 1)) → ∃ i : Fin (n + 1), xp i.castSucc ≤ s ∧ s ≤ xp i.succ := fun s a b =>
      ⟨interpCell xp s, interpCell_left hm a, interpCell_right hm b⟩
    obtain ⟨i, i1, i2⟩ := hcell x hx (hxy.trans hy)
    obtain ⟨j, j1, j2⟩ := hcell y (hx.trans hxy) hy
    have hG : G x ≤ G y := by
      rcases le_or_gt y (xp i.succ) with h | h
      · exact Gseg i i1 hxy h
      · have hij : i.succ ≤ j.castSucc := by
          by_contra hc'
          have : j.succ ≤ i.succ := by
            rw [not_le, Fin.lt_def] at hc'
            rw [Fin.le_def]; simp at hc' ⊢; omega
          exact absurd (h.trans_le j2) (not_lt.2 (hm this))
        exact (Gseg i i1 i2 le_rfl).trans ((Gnode hij).trans (Gseg j le_rfl j1 j2))
    have : c * Real.log (interp x xp fp) + Λ * Real.log x ≤ c * Real.log (interp y xp fp) + Λ * Real.log y := hG
    linarith
  have k1 := key 1 (by norm_num)
  have k2 := key (-1) (by norm_num)
  rw [abs_le]; constructor <;> linarith

/-- interpolating on a perturbed grid -/
lemma interp_grid {xp xp' fp : Fin (n + 2) → ℝ} (hr : Resolved xp) (hr' : Resolved xp') {Λ δ : ℝ} (hΛ : 1 ≤ Λ) (hx0 : 0 < xp 0)
    (hf : ∀ i, 0 < fp i) (hs : LogSlope Λ xp fp) (hg : ∀ i, Close δ (xp' i) (xp i)) {x : ℝ} (hx : xp 0 ≤ x) (hx1 : x ≤ xp (Fin.last (n + 1)))
    (hx' : xp' 0 ≤ x) (hx1' : x ≤ xp' (Fin.last (n + 1))) : Close (Λ * δ) (interp x xp' fp) (interp x xp fp) := by
  have hm := hr.strictMono.monotone
  obtain ⟨i, s, a, b, c⟩ := interp_convex hr'.strictMono.monotone x
  set y := (1 - s) * xp i.castSucc + s * xp i.succ with hy
  have hi := hr.strictMono (Fin.castSucc_lt_succ (i := i))
  have y0 : xp i.castSucc ≤ y := by rw [hy]; nlinarith
  have y1 : y ≤ xp i.succ := by rw [hy]; nlinarith
  have hyl : xp 0 ≤ y := (hm (Fin.zero_le _)).trans y0
  have hyr : y ≤ xp (Fin.last (n + 1)) := y1.trans (hm (Fin.le_last _))
  have exy : Close δ x y := by
    have e : x = (1 - s) * xp' i.castSucc + s * xp' i.succ := by
      rw [← c xp', interp_self hr', min_eq_left hx1', max_eq_right hx']
    rw [e, hy]
    refine Close.add ?_ ?_
    · have := (Close.refl (sub_nonneg.2 b)).mul (hg i.castSucc); rwa [zero_add] at this
    · have := (Close.refl a).mul (hg i.succ); rwa [zero_add] at this
  have ev : interp x xp' fp = interp y xp fp := by rw [c, hy, interp_at_convex hr fp i a b]
  have hyp : 0 < y := hx0.trans_le hyl
  have pos : ∀ t, 0 < interp t xp fp := fun t => by
    obtain ⟨i, s, a, b, c⟩ := interp_convex hm t
    rw [c]
    have h1 := hf i.castSucc
    have h2 := hf i.succ
    rcases eq_or_lt_of_le a with h | h
    · rw [← h]; linarith
    · have := mul_pos h h2
      nlinarith [mul_nonneg (sub_nonneg.2 b) h1.le]
  rw [ev]
  refine Close.of_log (pos x) (pos y) ?_
  have hlog := exy.abs_log hyp
  rcases le_total x y with h | h
  · refine (interp_logLip hr hΛ hx0 hf hs hx h hyr).trans (mul_le_mul_of_nonneg_left ?_ (by linarith))
    exact (neg_sub (Real.log x) (Real.log y) ▸ neg_le_abs _).trans hlog
  · rw [abs_sub_comm]
    exact (interp_logLip hr hΛ hx0 hf hs hyl h hx1).trans (mul_le_mul_of_nonneg_left ((le_abs_self _).trans hlog) (by linarith))

end Dsps.Lemmas
