import Verif.Model.RoundedSed
import Verif.Lemmas.Fl
import Verif.Lemmas.AgeWeights
import Verif.Props.Rounding

/-! Error propagation through binning, logarithms and interpolation in machine arithmetic. -/
namespace Dsps.Lemmas
open Fl Jnp Dsps.Constants

variable {A : Arith} {n m : ℕ} {v : ℝ}

/-! ### more absolute errors -/
namespace Near

lemma neg {k : ℕ} {x' x M : ℝ} (h : Near A k x' x M) : Near A k (-x') (-x) M := by
  refine ⟨by rw [abs_neg]; exact h.1, ?_⟩
  rw [← neg_add', ← sub_eq_add_neg, abs_neg]; exact h.2

lemma sub {k : ℕ} {x' x M y' y N : ℝ} (h : Near A k x' x M) (h' : Near A k y' y N) :
    Near A k (x' - y') (x - y) (M + N) := by
  rw [sub_eq_add_neg, sub_eq_add_neg]; exact h.add h'.neg

lemma subR' {k l : ℕ} {x' x M y' y N r : ℝ} (h : Near A k x' x M) (h' : Near A l y' y N) (hr : r ∈ A.sub x' y') :
    Near A (max k l + 1) r (x - y) (M + N) :=
  ((h.mono (le_max_left _ _)).sub (h'.mono (le_max_right _ _))).rnd hr

lemma halfR {k : ℕ} {x' x M r : ℝ} (h : Near A k x' x M) (hr : r ∈ A.div x' 2) : Near A (k + 1) r (x / 2) (M / 2) := by
  have := h.divR (y := 2) (y' := 2) (l := 0) (by norm_num) (Within'.refl (by norm_num)) hr
  simpa using this

end Near

/-! ### bin edges -/

lemma rel_setAt {ι : Type*} [DecidableEq ι] {R : ℝ → ℝ → Prop} {a a' : ι → ℝ} (h : ∀ i, R (a' i) (a i)) (j : ι) {b b' : ℝ} (hb : R b' b)
    (i : ι) : R (Function.update a' j b' i) (Function.update a j b i) := by
  by_cases hi : i = j
  · subst hi; simpa using hb
  · simpa [hi] using h i

lemma rel_setInit {R : ℝ → ℝ → Prop} {a a' : Fin (n + 1) → ℝ} {b b' : Fin n → ℝ} (ha : R (a' (Fin.last n)) (a (Fin.last n)))
    (hb : ∀ i, R (b' i) (b i)) (i : Fin (n + 1)) : R (setInit a' b' i) (setInit a b i) := by
  unfold setInit
  refine Fin.lastCases ?_ (fun j => ?_) i
  · simpa using ha
  · simpa using hb j

lemma rel_setTail {R : ℝ → ℝ → Prop} {a a' : Fin (n + 1) → ℝ} {b b' : Fin n → ℝ} (ha : R (a' 0) (a 0))
    (hb : ∀ i, R (b' i) (b i)) (i : Fin (n + 1)) : R (setTail a' b' i) (setTail a b i) := by
  unfold setTail
  refine Fin.cases ?_ (fun j => ?_) i
  · simpa using ha
  · simpa using hb j

lemma near_zero {k : ℕ} {M : ℝ} (hM : 0 ≤ M) : Near A k 0 0 M := (Near.refl (by simpa using hM)).mono (Nat.zero_le _)

lemma tmids_near {t : Fin (n + 3) → ℝ} {B : ℝ} (hB : ∀ i, |t i| ≤ B) {s tm : Fin (n + 2) → ℝ}
    (hs : s ∈ vec fun i => A.add (init t i) (tail t i)) (ht : tm ∈ vec fun i => A.mul 0.5 (s i)) (i : Fin (n + 2)) :
    Near A 2 (tm i) (0.5 * (init t i + tail t i)) B := by
  have h1 := (Near.refl (A := A) (hB i.castSucc)).addR (Near.refl (hB i.succ)) (hs i)
  have h2 := (Near.of_within (by norm_num : (0:ℝ) ≤ 0.5) (Within'.refl (A := A) (by norm_num))).mulR h1 (ht i)
  have e : (0.5:ℝ) * (B + B) = B := by norm_num; ring
  rw [e] at h2
  exact h2.mono (by simp)

lemma dt_near {t : Fin (n + 3) → ℝ} {B : ℝ} (hB : ∀ i, |t i| ≤ B) {out : Fin (n + 3) → ℝ}
    (h : out ∈ Rounded.jax_get_dt_array A t) (i : Fin (n + 3)) : Near A 6 (out i) (Utils.jax_get_dt_array t i) (3 * B) := by
  obtain ⟨s, hs, tm, htm, dtm, hdt, a, ha, b, hb, tlo, htlo, c, hc, thi, hthi, d0, hd0, d1, hd1, rfl⟩ := h
  have hB0 : 0 ≤ B := (abs_nonneg _).trans (hB 0)
  have wt := tmids_near hB hs htm
  have wd : ∀ i : Fin (n + 1), Near A 3 (dtm i) (Jnp.diff (fun i => 0.5 * (init t i + tail t i)) i) (2 * B) := fun i => by
    have := (wt i.succ).subR' (wt i.castSucc) (hdt i)
    rw [← two_mul] at this
    exact this
  have wa : Near A 1 a (t 1 - t 0) (2 * B) := by
    have := (Near.refl (A := A) (hB 1)).subR' (Near.refl (hB 0)) ha
    rw [← two_mul] at this; exact this
  have wb := wa.halfR hb
  have wlo := (Near.refl (A := A) (hB 0)).subR' wb htlo
  have wc := (wd (Fin.last n)).halfR hc
  have whi := (Near.refl (A := A) (hB (Fin.last (n + 2)))).addR wc hthi
  have w0 := (wt 0).subR' wlo hd0
  have w1 := whi.subR' (wt (Fin.last (n + 1))) hd1
  have e0 : B + (B + 2 * B / 2) = 3 * B := by ring
  have e1 : B + 2 * B / 2 + B = 3 * B := by ring
  rw [e0] at w0
  rw [e1] at w1
  unfold Utils.jax_get_dt_array
  refine rel_setAt (R := fun x' x => Near A 6 x' x (3 * B)) (fun i => rel_setAt (R := fun x' x => Near A 6 x' x (3 * B))
    (fun i => ?_) 0 (w0.mono (by simp)) i) (Fin.last (n + 2)) (w1.mono (by simp)) i
  refine rel_setTail (R := fun x' x => Near A 6 x' x (3 * B)) (near_zero (by linarith)) (fun i => ?_) i
  refine rel_setInit (R := fun x' x => Near A 6 x' x (3 * B)) (near_zero (by linarith)) (fun i => ?_) i
  exact ((wd i).mono (by norm_num)).mono_M (by linarith)

lemma age_edges_near {a : Fin (m + 3) → ℝ} {B : ℝ} (hB : ∀ i, |a i| ≤ B) {out : Fin (m + 4) → ℝ}
    (h : out ∈ Rounded.get_lg_age_bin_edges A a) (i : Fin (m + 4)) :
    Near A 8 (out i) (StellarAgeWeights.get_lg_age_bin_edges a i) (5 / 2 * B) := by
  obtain ⟨dt, hdt, hf, hhf, lo, hlo, x, hx, dl, hdl, lw, hlw, c, hc, hi, hhi, rfl⟩ := h
  have hB0 : 0 ≤ B := (abs_nonneg _).trans (hB 0)
  have wdt := dt_near hB hdt
  have whf := fun i => (wdt i).halfR (hhf i)
  have e1 : B + 3 * B / 2 = 5 / 2 * B := by ring
  have wlo : ∀ i, Near A 8 (lo i) (a i - Utils.jax_get_dt_array a i / 2) (5 / 2 * B) := fun i => by
    have := (Near.refl (A := A) (hB i)).subR' (whf i) (hlo i)
    rw [e1] at this
    exact this.mono (by simp)
  have wx : Near A 1 x (a 1 - a 0) (2 * B) := by
    have := (Near.refl (A := A) (hB 1)).subR' (Near.refl (hB 0)) hx
    rw [← two_mul] at this; exact this
  have wlw := (Near.refl (A := A) (hB 0)).subR' (wx.halfR hdl) hlw
  have whi := (Near.refl (A := A) (hB (Fin.last (m + 2)))).addR ((wdt (Fin.last (m + 2))).halfR hc) hhi
  rw [e1] at whi
  unfold StellarAgeWeights.get_lg_age_bin_edges
  refine rel_setAt (R := fun x' x => Near A 8 x' x (5 / 2 * B)) (fun i => rel_setAt (R := fun x' x => Near A 8 x' x (5 / 2 * B))
    (fun i => ?_) 0 ((wlw.mono (by simp)).mono_M (by linarith)) i) (Fin.last (m + 3)) (whi.mono (by simp)) i
  exact rel_setInit (R := fun x' x => Near A 8 x' x (5 / 2 * B)) (near_zero (by linarith)) wlo i

/-! ### interpolation: sensitivity to the table -/
section
variable [Dtype]

lemma interp_at_convex {xp : Fin (n + 2) → ℝ} (hr : Resolved xp) (fp : Fin (n + 2) → ℝ) (i : Fin (n + 1)) {s : ℝ} (h0 : 0 ≤ s)
    (h1 : s ≤ 1) : interp ((1 - s) * xp i.castSucc + s * xp i.succ) xp fp = (1 - s) * fp i.castSucc + s * fp i.succ := by
  have hd : 0 < xp i.succ - xp i.castSucc := sub_pos.2 (hr.strictMono Fin.castSucc_lt_succ)
  rw [interp_cell hr fp i (by nlinarith) (by nlinarith)]
  have : (1 - s) * xp i.castSucc + s * xp i.succ - xp i.castSucc = s * (xp i.succ - xp i.castSucc) := by ring
  rw [this, mul_div_assoc, div_self hd.ne']; ring

/-- interpolating the abscissae gives the clamped argument -/
lemma interp_self {xp : Fin (n + 2) → ℝ} (hr : Resolved xp) (x : ℝ) :
    interp x xp xp = max (xp 0) (min x (xp (Fin.last (n + 1)))) := by
  have hm := hr.strictMono.monotone
  have h0l := hm (Fin.zero_le (Fin.last (n + 1)))
  rcases lt_or_ge x (xp 0) with h | h
  · unfold interp; rw [interp_of_lt hm h, min_eq_left (h.le.trans h0l), max_eq_left h.le]
  rcases lt_or_ge (xp (Fin.last (n + 1))) x with h' | h'
  · unfold interp; rw [interp_of_gt h', min_eq_right h'.le, max_eq_right h0l]; rfl
  · rw [min_eq_left h', max_eq_right h]
    have hl := interpCell_left hm h
    have hrr := interpCell_right hm h'
    have hd : 0 < xp (interpCell xp x).succ - xp (interpCell xp x).castSucc := sub_pos.2 (hr.strictMono Fin.castSucc_lt_succ)
    rw [interp_cell hr xp _ hl hrr, div_mul_cancel₀ _ hd.ne']; ring

lemma interp_clamp {xp : Fin (n + 2) → ℝ} (hr : Resolved xp) (fp : Fin (n + 2) → ℝ) (x : ℝ) :
    interp (interp x xp xp) xp fp = interp x xp fp := by
  obtain ⟨i, s, a, b, c⟩ := interp_convex hr.strictMono.monotone x
  rw [c xp, interp_at_convex hr fp i a b, c fp]

/-- the interpolant is Lipschitz with the largest slope of the table -/
lemma interp_lipschitz {xp fp : Fin (n + 2) → ℝ} (hr : Resolved xp) {L : ℝ} (hL0 : 0 ≤ L)
    (hL : ∀ i : Fin (n + 1), |fp i.succ - fp i.castSucc| ≤ L * (xp i.succ - xp i.castSucc)) (x y : ℝ) :
    |interp x xp fp - interp y xp fp| ≤ L * |x - y| := by
  have hm := hr.strictMono.monotone
  have key : ∀ x y, x ≤ y → |interp y xp fp - interp x xp fp| ≤ L * (y - x) := by
    intro x y hxy
    have m1 := interp_mono hm (fp := fun i => L * xp i + (-1) * fp i) (Fin.monotone_iff_le_succ.2 fun i => by
      have := (abs_le.1 (hL i)).2; linarith) hxy
    have m2 := interp_mono hm (fp := fun i => L * xp i + 1 * fp i) (Fin.monotone_iff_le_succ.2 fun i => by
      have := (abs_le.1 (hL i)).1; linarith) hxy
    simp only [interp_linear hm] at m1 m2
    have hc : interp y xp xp - interp x xp xp ≤ y - x := by
      rw [interp_self hr, interp_self hr]
      rcases le_total (xp 0) (min y (xp (Fin.last (n + 1)))) with h | h
      · rw [max_eq_right h]
        rcases le_total x (xp (Fin.last (n + 1))) with h2 | h2
        · have := min_le_left y (xp (Fin.last (n + 1)))
          have h3 := le_max_right (xp 0) (min x (xp (Fin.last (n + 1))))
          rw [min_eq_left h2] at h3 ⊢; linarith
        · have := min_le_right y (xp (Fin.last (n + 1)))
          have h3 := le_max_right (xp 0) (min x (xp (Fin.last (n + 1))))
          rw [min_eq_right h2] at h3 ⊢; linarith
      · rw [max_eq_left h]
        have h3 := le_max_left (xp 0) (min x (xp (Fin.last (n + 1))))
        linarith
    have := mul_le_mul_of_nonneg_left hc hL0
    rw [abs_le]; constructor <;> linarith
  rcases le_total x y with h | h
  · have := key x y h
    rw [abs_sub_comm x y, abs_of_nonneg (sub_nonneg.2 h), abs_sub_comm]; exact this
  · have := key y x h
    rw [abs_of_nonneg (sub_nonneg.2 h)]; exact this

/-- changing the abscissae by `η` and the values by `φ` changes the interpolant by at most `φ + 2 L η` -/
lemma interp_perturb {xp xp' fp fp' : Fin (n + 2) → ℝ} (hr : Resolved xp) (hr' : Resolved xp') {L η φ : ℝ} (hL0 : 0 ≤ L)
    (hL : ∀ i : Fin (n + 1), |fp i.succ - fp i.castSucc| ≤ L * (xp i.succ - xp i.castSucc))
    (hη : ∀ i, |xp' i - xp i| ≤ η) (hφ : ∀ i, |fp' i - fp i| ≤ φ) (x : ℝ) :
    |interp x xp' fp' - interp x xp fp| ≤ φ + 2 * L * η := by
  obtain ⟨i, s, a, b, c⟩ := interp_convex hr'.strictMono.monotone x
  set y := (1 - s) * xp i.castSucc + s * xp i.succ with hy
  have conv : ∀ {p q p' q' e : ℝ}, |p' - p| ≤ e → |q' - q| ≤ e → |((1 - s) * p' + s * q') - ((1 - s) * p + s * q)| ≤ e := by
    intro p q p' q' e h1 h2
    have e1 : ((1 - s) * p' + s * q') - ((1 - s) * p + s * q) = (1 - s) * (p' - p) + s * (q' - q) := by ring
    rw [e1]
    refine (abs_add_le _ _).trans ?_
    rw [abs_mul, abs_mul, abs_of_nonneg a, abs_of_nonneg (sub_nonneg.2 b)]
    nlinarith [mul_le_mul_of_nonneg_left h1 (sub_nonneg.2 b), mul_le_mul_of_nonneg_left h2 a]
  have h1 : |interp x xp' fp' - interp y xp fp| ≤ φ := by
    rw [c, hy, interp_at_convex hr fp i a b]; exact conv (hφ _) (hφ _)
  have h2 : |interp x xp' xp' - y| ≤ η := by rw [c]; exact conv (hη _) (hη _)
  have h3 : |interp x xp' xp' - interp x xp xp| ≤ η := by
    rw [interp_self hr', interp_self hr]
    have hη0 : 0 ≤ η := (abs_nonneg _).trans (hη 0)
    refine (abs_max_sub_max_le_max _ _ _ _).trans (max_le (hη 0) ?_)
    refine (abs_min_sub_min_le_max _ _ _ _).trans (max_le (by simpa using hη0) (hη _))
  have h4 := interp_lipschitz hr hL0 hL y (interp x xp xp)
  rw [interp_clamp hr] at h4
  have h5 : |y - interp x xp xp| ≤ 2 * η := by
    have := abs_sub_le y (interp x xp' xp') (interp x xp xp)
    rw [abs_sub_comm y (interp x xp' xp')] at this; linarith
  have h6 := mul_le_mul_of_nonneg_left h5 hL0
  have := abs_sub_le (interp x xp' fp') (interp y xp fp) (interp x xp fp)
  linarith

/-- machine interpolation of values of size at most `S` -/
lemma interp_near {xp fp : Fin (n + 2) → ℝ} {S x r : ℝ} (hx : Monotone xp)
    (hres : ∀ i : Fin (n + 1), Dtype.interpEps < (xp i.succ - xp i.castSucc) * (1 - A.u)) (hS : ∀ i, |fp i| ≤ S)
    (hr : r ∈ Rounded.interp A x xp fp) : Near A 6 r (Jnp.interp x xp fp) (2 * S) := by
  have hS0 : 0 ≤ S := (abs_nonneg _).trans (hS 0)
  rcases hr with ⟨h, rfl⟩ | ⟨h, h', rfl⟩ | ⟨h, h', hb⟩
  · unfold Jnp.interp interpLR; rw [if_pos h]
    exact (Near.refl ((hS _).trans (by linarith))).mono (Nat.zero_le _)
  · unfold Jnp.interp interpLR; rw [if_neg h, if_pos h']
    exact (Near.refl ((hS _).trans (by linarith))).mono (Nat.zero_le _)
  unfold Jnp.interp interpLR; rw [if_neg h, if_neg h']
  obtain ⟨df, e1, dx, e2, dl, e3, hb⟩ := hb
  have hl := interpCell_left hx (not_lt.1 h')
  have hrr := interpCell_right hx (not_lt.1 h)
  set i := interpCell xp x with hi
  have hdx0 : 0 < xp i.succ - xp i.castSucc := by
    have := hres i
    have hq := q_pos A
    have he := Dtype.interpEps_nonneg
    by_contra hc
    push Not at hc
    nlinarith
  have wdx := Within'.rndR hdx0.le e2
  have hdxp := Within'.pos hdx0 wdx
  have hguard : ¬ |dx| ≤ Dtype.interpEps := by
    rw [abs_of_pos hdxp]
    have := wdx.1
    rw [pow_one] at this
    linarith [hres i]
  have hguard' : ¬ |xp i.succ - xp i.castSucc| ≤ Dtype.interpEps := by
    rw [abs_of_pos hdx0]
    have := hres i
    have hu := A.u_nonneg
    nlinarith
  rcases hb with ⟨hg, _⟩ | ⟨_, q, e4, p, e5, e6⟩
  · exact absurd hg hguard
  have hdl : 0 ≤ x - xp i.castSucc := sub_nonneg.mpr hl
  have wdl := Within'.rndR hdl e3
  have wq := Within'.divR hdl hdx0.le wdl wdx e4
  have hdf : |fp i.succ - fp i.castSucc| ≤ 2 * S := by
    have := abs_sub (fp i.succ) (fp i.castSucc); linarith [hS i.succ, hS i.castSucc]
  have ndf : Near A 1 df (fp i.succ - fp i.castSucc) (2 * S) := Near.subR hdf e1
  have np := (Near.of_within (div_nonneg hdl hdx0.le) wq).mulR ndf e5
  set t := (x - xp i.castSucc) / (xp i.succ - xp i.castSucc) with ht
  have ht1 : t ≤ 1 := by rw [ht, div_le_one hdx0]; linarith
  have ht0 : 0 ≤ t := div_nonneg hdl hdx0.le
  have np' := np.mono_M (show t * (2 * S) ≤ 2 * S by nlinarith)
  have hval : Jnp.interpBody x xp fp = fp i.castSucc + t * (fp i.succ - fp i.castSucc) := by
    unfold Jnp.interpBody
    simp only [← hi]
    rw [if_neg hguard']
  have hb : |fp i.castSucc + t * (fp i.succ - fp i.castSucc)| ≤ 2 * S := by
    have e : fp i.castSucc + t * (fp i.succ - fp i.castSucc) = (1 - t) * fp i.castSucc + t * fp i.succ := by ring
    have h1 := hS i.castSucc
    have h2 := hS i.succ
    rw [abs_le] at h1 h2 ⊢
    rw [e]; constructor <;> nlinarith
  rw [hval]
  have n5 : Near A 5 (fp i.castSucc + p) (fp i.castSucc + t * (fp i.succ - fp i.castSucc)) (2 * S) := by
    refine ⟨hb, ?_⟩
    have : fp i.castSucc + p - (fp i.castSucc + t * (fp i.succ - fp i.castSucc))
        = p - t * (fp i.succ - fp i.castSucc) := by ring
    rw [this]
    exact np'.2
  exact n5.rnd e6

end

/-! ### logarithms and powers -/

/-- one rounding in dex: `log10 (1/(1-u))` -/
noncomputable def gdex (A : Arith) : ℝ := Jnp.log10 (1 / (1 - A.u))

lemma gdex_nonneg (A : Arith) : 0 ≤ gdex A := Real.logb_nonneg (by norm_num) (G_ge A)

lemma log10_within {k : ℕ} {x' x : ℝ} (hx : 0 < x) (h : Within A k x' x) : |Jnp.log10 x' - Jnp.log10 x| ≤ k * gdex A := by
  have hx' := Within'.pos hx h
  have hq := qp_pos A k
  have e : Jnp.log10 ((1 - A.u) ^ k) = -(k * gdex A) := by
    unfold gdex Jnp.log10
    rw [Real.logb_pow, one_div, Real.logb_inv]; ring
  have m : ∀ {a b : ℝ}, 0 < a → 0 < b → Jnp.log10 (a * b) = Jnp.log10 a + Jnp.log10 b := fun ha hb => Real.logb_mul ha.ne' hb.ne'
  have h1 := log10_le (mul_pos hx hq) h.1
  have h2 := log10_le (mul_pos hx' hq) h.2
  rw [m hx hq, e] at h1
  rw [m hx' hq, e] at h2
  rw [abs_le]; constructor <;> linarith

lemma exp10_add (a b : ℝ) : Jnp.exp10 (a + b) = Jnp.exp10 a * Jnp.exp10 b := Real.rpow_add (by norm_num) a b

lemma exp10_zero : Jnp.exp10 0 = 1 := Real.rpow_zero _

lemma one_le_exp10 {ε : ℝ} (h : 0 ≤ ε) : 1 ≤ Jnp.exp10 ε := by
  rw [← exp10_zero]; exact exp10_strictMono.monotone h

/-- relative error of `10**x` with an argument off by `ε` -/
noncomputable def expErr (v ε : ℝ) : ℝ := (1 + v) * Jnp.exp10 ε - 1

lemma expErr_nonneg {ε : ℝ} (hv : 0 ≤ v) (h : 0 ≤ ε) : 0 ≤ expErr v ε := by
  unfold expErr; nlinarith [one_le_exp10 h]

lemma exp10_err {ℓ ℓ' ε y : ℝ} (hv : 0 ≤ v) (h : |ℓ' - ℓ| ≤ ε) (hy : y ∈ Rounded.exp10 v ℓ') :
    |y - Jnp.exp10 ℓ| ≤ expErr v ε * Jnp.exp10 ℓ := by
  have hε : 0 ≤ ε := (abs_nonneg _).trans h
  have hy' : |y - Jnp.exp10 ℓ'| ≤ v * Jnp.exp10 ℓ' := hy
  have e : Jnp.exp10 ℓ' = Jnp.exp10 ℓ * Jnp.exp10 (ℓ' - ℓ) := by rw [← exp10_add]; congr 1; ring
  have hp := exp10_pos ℓ
  have hr : Jnp.exp10 (ℓ' - ℓ) ≤ Jnp.exp10 ε := exp10_strictMono.monotone (abs_le.1 h).2
  have hl : Jnp.exp10 (-ε) ≤ Jnp.exp10 (ℓ' - ℓ) := exp10_strictMono.monotone (abs_le.1 h).1
  have hE := one_le_exp10 hε
  have hinv : Jnp.exp10 (-ε) * Jnp.exp10 ε = 1 := by rw [← exp10_add, neg_add_cancel, exp10_zero]
  have hd : |Jnp.exp10 (ℓ' - ℓ) - 1| ≤ Jnp.exp10 ε - 1 := by
    have hpos := exp10_pos (-ε)
    rw [abs_le]; constructor <;> nlinarith
  have h2 : |Jnp.exp10 ℓ' - Jnp.exp10 ℓ| ≤ (Jnp.exp10 ε - 1) * Jnp.exp10 ℓ := by
    have e2 : Jnp.exp10 ℓ' - Jnp.exp10 ℓ = (Jnp.exp10 (ℓ' - ℓ) - 1) * Jnp.exp10 ℓ := by rw [e]; ring
    rw [e2, abs_mul, abs_of_pos hp]; exact mul_le_mul_of_nonneg_right hd hp.le
  have h3 : v * Jnp.exp10 ℓ' ≤ v * Jnp.exp10 ε * Jnp.exp10 ℓ := by
    rw [e]; have := mul_le_mul_of_nonneg_left hr (mul_nonneg hv hp.le); linarith
  have := abs_sub_le y (Jnp.exp10 ℓ') (Jnp.exp10 ℓ)
  unfold expErr
  nlinarith

/-! ### birth times -/

/-- error of the clipped birth time, for age edges off by `δ` dex -/
noncomputable def birthErr (A : Arith) (v δ t_obs : ℝ) : ℝ := (2 * (1 + A.u) * expErr v δ + A.u) * t_obs + A.u * 0.001

lemma birth_err {t_obs e e' δ : ℝ} (hv : 0 ≤ v) (ht : 0 < t_obs) (he : |e' - e| ≤ δ) (hsmall : expErr v δ ≤ 1 / 2) {x : ℝ}
    (hx : x ∈ Rounded.get_lgt_birth A v t_obs e') :
    ∃ c, 0.001 * (1 - A.u) ≤ c ∧ c ≤ max (0.001 * (1 + A.u)) (t_obs * (1 + A.u)) ∧ |c - Spec.birthTime t_obs e| ≤ birthErr A v δ t_obs ∧
      |x - Jnp.log10 c| ≤ v * max 1 |Jnp.log10 c| := by
  obtain ⟨age, hage, tb, htb, tm, htm, hx⟩ := hx
  have hu := A.u_nonneg
  have hρ := expErr_nonneg hv ((abs_nonneg _).trans he)
  have hT : |T_BIRTH_MIN| = 0.001 := by rw [T_BIRTH_MIN, abs_of_pos]; norm_num
  have wm := A.rel _ _ htm
  rw [hT, T_BIRTH_MIN] at wm
  have wage := exp10_err hv he hage
  set a := Jnp.exp10 e with ha
  have hap : 0 < a := exp10_pos e
  have hagepos : 0 ≤ age := by
    have := (abs_le.1 wage).1; nlinarith
  have wtb := A.rel _ _ htb
  have hc : (if tb < tm then tm else tb) = max tm tb := by
    split_ifs with h
    · rw [max_eq_left h.le]
    · rw [max_eq_right (not_lt.1 h)]
  rw [hc] at hx
  refine ⟨max tm tb, ?_, ?_, ?_, hx⟩
  · refine le_trans ?_ (le_max_left _ _)
    have := (abs_le.1 wm).1; linarith
  · refine max_le_max ?_ ?_
    · have := (abs_le.1 wm).2; linarith
    · have h1 := (abs_le.1 wtb).2
      rcases le_total 0 (t_obs - age) with h | h
      · rw [abs_of_nonneg h] at h1; nlinarith
      · rw [abs_of_nonpos h] at h1
        nlinarith [A.u_lt_one]
  · unfold Spec.birthTime birthErr
    have ha' : (10:ℝ) ^ e = a := rfl
    rw [ha']
    have hm : |tm - 0.001| ≤ (2 * (1 + A.u) * expErr v δ + A.u) * t_obs + A.u * 0.001 := by
      refine wm.trans ?_
      have : 0 ≤ (2 * (1 + A.u) * expErr v δ + A.u) * t_obs := by positivity
      linarith
    rcases le_or_gt a (2 * t_obs) with h | h
    · refine (abs_max_sub_max_le_max _ _ _ _).trans (max_le hm ?_)
      have h1 : |tb - (t_obs - a)| ≤ A.u * |t_obs - age| + |age - a| := by
        have := abs_sub_le tb (t_obs - age) (t_obs - a)
        have e3 : t_obs - age - (t_obs - a) = -(age - a) := by ring
        rw [e3, abs_neg] at this; linarith
      have h2 : |t_obs - age| ≤ |t_obs - a| + |age - a| := by
        have := abs_sub_le t_obs a age
        rw [abs_sub_comm a age] at this; exact this
      have h3 : |t_obs - a| ≤ t_obs := by rw [abs_le]; constructor <;> linarith
      have h4 : |age - a| ≤ expErr v δ * (2 * t_obs) := wage.trans (mul_le_mul_of_nonneg_left h hρ)
      have h5 := mul_le_mul_of_nonneg_left (h2.trans (add_le_add h3 h4)) hu
      have : (0:ℝ) ≤ A.u * 0.001 := by positivity
      linarith
    · have h1 : t_obs ≤ age := by have := (abs_le.1 wage).1; nlinarith
      have h2 : tb ≤ 0 := by
        have h3 := (abs_le.1 wtb).2
        rw [abs_of_nonpos (by linarith)] at h3
        nlinarith [A.u_lt_one]
      have h3 : 0 ≤ tm := by have := (abs_le.1 wm).1; nlinarith [A.u_lt_one]
      rw [max_eq_left (h2.trans h3), max_eq_left (by norm_num; linarith)]
      exact hm

/-! ### from masses at the bin edges to weights -/

/-- error of the total mass, for masses off by `μ` -/
noncomputable def totalErr (A : Arith) (d N : ℕ) (μ Δ : ℝ) : ℝ := 2 * μ + ((1 / (1 - A.u)) ^ (d + 1) - 1) * (Δ + 2 * N * μ)

/-- error of the weights, for masses off by `μ` -/
noncomputable def weightErr (A : Arith) (d N : ℕ) (μ Δ : ℝ) : ℝ :=
  (1 + A.u) * ((2 * (1 + A.u) * μ + A.u * Δ + totalErr A d N μ Δ) / (Δ - totalErr A d N μ Δ)) + A.u

lemma G_pow_nonneg (A : Arith) (k : ℕ) : 0 ≤ (1 / (1 - A.u)) ^ k - 1 := by linarith [Gp_ge A k]

lemma totalErr_nonneg {d N : ℕ} {μ Δ : ℝ} (hμ : 0 ≤ μ) (hΔ : 0 ≤ Δ) : 0 ≤ totalErr A d N μ Δ := by
  unfold totalErr
  have := G_pow_nonneg A (d + 1)
  positivity

lemma weights_err {N d : ℕ} {M M' : Fin (N + 1) → ℝ} {μ : ℝ} (hM : Antitone M) (hμ : ∀ i, |M' i - M i| ≤ μ) {df : Fin N → ℝ}
    (hdf : df ∈ vec fun i : Fin N => A.sub (tail M' i) (init M' i)) {out : Fin N → ℝ} (ho : out ∈ Rounded.normalize A d fun i => -df i)
    (hpos : totalErr A d N μ (M 0 - M (Fin.last N)) < M 0 - M (Fin.last N)) (i : Fin N) :
    |out i - (M i.castSucc - M i.succ) / (M 0 - M (Fin.last N))| ≤ weightErr A d N μ (M 0 - M (Fin.last N)) := by
  set Δ := M 0 - M (Fin.last N) with hΔ
  have hu := A.u_nonneg
  have hμ0 : 0 ≤ μ := (abs_nonneg _).trans (hμ 0)
  have hΔ0 : 0 ≤ Δ := sub_nonneg.2 (hM (Fin.zero_le _))
  have hσ := totalErr_nonneg (A := A) (d := d) (N := N) hμ0 hΔ0
  obtain ⟨s, hs, ho⟩ := ho
  -- exact and perturbed differences
  set D : Fin N → ℝ := fun i => M i.castSucc - M i.succ
  set D' : Fin N → ℝ := fun i => M' i.castSucc - M' i.succ
  have hD0 : ∀ i, 0 ≤ D i := fun i => sub_nonneg.2 (hM (Fin.castSucc_lt_succ (i := i)).le)
  have hDsum : ∑ i, D i = Δ := sum_telescope' M
  have hD'sum : ∑ i, D' i = M' 0 - M' (Fin.last N) := sum_telescope' M'
  have hDD : ∀ i, |D' i - D i| ≤ 2 * μ := fun i => by
    have e : D' i - D i = (M' i.castSucc - M i.castSucc) - (M' i.succ - M i.succ) := by simp only [D, D']; ring
    rw [e]
    have := abs_sub (M' i.castSucc - M i.castSucc) (M' i.succ - M i.succ)
    linarith [hμ i.castSucc, hμ i.succ]
  have hr : ∀ i, |(-df i) - D' i| ≤ A.u * |D' i| := fun i => by
    have := A.rel _ _ (hdf i)
    have e1 : tail M' i - init M' i = -D' i := by simp only [tail, init, D']; ring
    rw [e1, abs_neg] at this
    have e2 : -df i - D' i = -(df i - -D' i) := by ring
    rw [e2, abs_neg]; exact this
  have hD'le : ∀ i, |D' i| ≤ D i + 2 * μ := fun i => by
    have := abs_sub_abs_le_abs_sub (D' i) (D i)
    rw [abs_of_nonneg (hD0 i)] at this
    linarith [hDD i]
  have hsumD' : ∑ i, |D' i| ≤ Δ + 2 * N * μ := by
    refine (Finset.sum_le_sum fun i _ => hD'le i).trans ?_
    rw [Finset.sum_add_distrib, hDsum]; simp; linarith
  have hq : 1 + A.u ≤ 1 / (1 - A.u) := one_add_u_le A
  have near : Near A (0 + d) s (∑ i, -df i) (∑ i, (1 + A.u) * |D' i|) := sum_near (fun i => Near.refl (by
    have := abs_sub_abs_le_abs_sub (-df i) (D' i)
    linarith [hr i])) hs
  rw [zero_add, ← Finset.mul_sum] at near
  have hS0 : 0 ≤ ∑ i, |D' i| := Finset.sum_nonneg fun i _ => abs_nonneg _
  have e1 : |(∑ i, -df i) - ∑ i, D' i| ≤ A.u * ∑ i, |D' i| := by
    rw [← Finset.sum_sub_distrib, Finset.mul_sum]
    exact (Finset.abs_sum_le_sum_abs _ _).trans (Finset.sum_le_sum fun i _ => hr i)
  have e2 : |(∑ i, D' i) - Δ| ≤ 2 * μ := by
    rw [hD'sum, hΔ]
    have e : M' 0 - M' (Fin.last N) - (M 0 - M (Fin.last N)) = (M' 0 - M 0) - (M' (Fin.last N) - M (Fin.last N)) := by ring
    rw [e]
    have := abs_sub (M' 0 - M 0) (M' (Fin.last N) - M (Fin.last N))
    linarith [hμ 0, hμ (Fin.last N)]
  have hsΔ : |s - Δ| ≤ totalErr A d N μ Δ := by
    have t1 := abs_sub_le s (∑ i, -df i) (∑ i, D' i)
    have t2 := abs_sub_le s (∑ i, D' i) Δ
    have t3 : (1 + A.u) * (1 / (1 - A.u)) ^ d ≤ (1 / (1 - A.u)) ^ (d + 1) := by
      rw [pow_succ, mul_comm]; exact mul_le_mul_of_nonneg_left hq (by linarith [Gp_ge A d])
    have t4 := mul_le_mul_of_nonneg_right t3 hS0
    have t5 := mul_le_mul_of_nonneg_left hsumD' (G_pow_nonneg A (d + 1))
    have t6 := near.2
    unfold totalErr
    nlinarith
  have hsp : Δ - totalErr A d N μ Δ ≤ s := by have := (abs_le.1 hsΔ).1; linarith
  have hΔσ : 0 < Δ - totalErr A d N μ Δ := by linarith
  have hs0 : 0 < s := by linarith
  have hΔp : 0 < Δ := by linarith
  have hnum : |(-df i) - D i| ≤ 2 * (1 + A.u) * μ + A.u * Δ := by
    have t := abs_sub_le (-df i) (D' i) (D i)
    have hDi : D i ≤ Δ := by rw [← hDsum]; exact Finset.single_le_sum (fun i _ => hD0 i) (Finset.mem_univ i)
    have := mul_le_mul_of_nonneg_left ((hD'le i).trans (add_le_add_left hDi _)) hu
    nlinarith [hr i, hDD i]
  have hDi : D i ≤ Δ := by rw [← hDsum]; exact Finset.single_le_sum (fun i _ => hD0 i) (Finset.mem_univ i)
  have hquot : |(-df i) / s - D i / Δ| ≤ (2 * (1 + A.u) * μ + A.u * Δ + totalErr A d N μ Δ) / (Δ - totalErr A d N μ Δ) := by
    have e : (-df i) / s - D i / Δ = ((-df i - D i) - D i / Δ * (s - Δ)) / s := by field_simp; ring
    rw [e, abs_div, abs_of_pos hs0]
    have hw0 : 0 ≤ D i / Δ := div_nonneg (hD0 i) hΔ0
    have hw1 : D i / Δ ≤ 1 := (div_le_one hΔp).2 hDi
    have t : |(-df i - D i) - D i / Δ * (s - Δ)| ≤ 2 * (1 + A.u) * μ + A.u * Δ + totalErr A d N μ Δ := by
      refine (abs_sub _ _).trans ?_
      rw [abs_mul, abs_of_nonneg hw0]
      have := mul_le_mul hw1 hsΔ (abs_nonneg _) zero_le_one
      linarith
    exact div_le_div₀ ((abs_nonneg _).trans t) t hΔσ hsp
  have hfin := A.rel _ _ (ho i)
  have hw0 : 0 ≤ D i / Δ := div_nonneg (hD0 i) hΔ0
  have hw1 : D i / Δ ≤ 1 := (div_le_one hΔp).2 hDi
  have habs : |(-df i) / s| ≤ |(-df i) / s - D i / Δ| + 1 := by
    have := abs_sub_abs_le_abs_sub ((-df i) / s) (D i / Δ)
    rw [abs_of_nonneg hw0] at this; linarith
  have t := abs_sub_le (out i) ((-df i) / s) (D i / Δ)
  unfold weightErr
  have h7 := mul_le_mul_of_nonneg_left habs hu
  have h8 := mul_le_mul_of_nonneg_left hquot (show 0 ≤ 1 + A.u by linarith)
  linarith

end Dsps.Lemmas
