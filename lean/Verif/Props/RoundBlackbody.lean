import Verif.Model.RoundedDust
import Verif.Lemmas.RoundCosmo
import Verif.Props.RoundCosmoBits
import Verif.Props.Blackbody
import Verif.Props.RoundAge

/-! C128: floating-point accuracy of the blackbody spectrum.  The programs are those of `Verif/Model/RoundedDust.lean`; they are compared with
Planck's law (`Verif/SpecBlackbody.lean`).  Errors are counted in roundings, as in C117. -/
namespace Dsps.Props
open Jnp Fl Spec Dsps.Lemmas

variable {P A : Arith} {v ε : ℝ}

/-- the ratio of photon energy to thermal energy, `hν/kT` -/
noncomputable def photonRatio (nu T : ℝ) : ℝ := 6.62607015e-34 * nu / (1.380649e-23 * T)

/-- cost of the blackbody spectrum per unit frequency -/
noncomputable def bbNuCost (nu T : ℝ) : ℝ :=
  630 + 9.3 * |Real.log nu| + 7.4 * (1 + photonRatio nu T) + 1.1 * (1 + 1 / photonRatio nu T)

/-- cost of the blackbody spectrum per unit wavelength (in angstroms) -/
noncomputable def bbLambdaCost (lam T : ℝ) : ℝ :=
  690 + 15.6 * |Real.log (lam * 1e-10)| + 12.8 * (1 + photonRatio (299792458 / (lam * 1e-10)) T)
    + 1.1 * (1 + 1 / photonRatio (299792458 / (lam * 1e-10)) T)

lemma rnd_abs {u : ℝ} (hu : A.u ≤ u) {x r x0 e B : ℝ} (h : |x - x0| ≤ e) (hB : |x0| ≤ B) (hr : r ∈ A.rnd x) :
    |r - x0| ≤ e + u * (B + e) := by
  have h1 := A.rel _ _ hr
  have h2 : |x| ≤ B + e := by
    have := abs_add_le (x - x0) x0; rw [sub_add_cancel] at this; linarith
  have h3 : A.u * |x| ≤ u * (B + e) := mul_le_mul hu h2 (abs_nonneg _) (A.u_nonneg.trans hu)
  have := abs_add_le (r - x) (x - x0)
  rw [sub_add_sub_cancel] at this
  linarith

lemma log_abs (M : Machine P A v ε) {x x0 δ B l : ℝ} (hx0 : 0 < x0) (h : Close δ x x0) (hB : |Real.log x0| ≤ B) (hB1 : 1 ≤ B)
    (hr : l ∈ Rounded.log v x) : |l - Real.log x0| ≤ δ + ε * (B + δ) := by
  have h1 := h.abs_log hx0
  have h0 : 0 ≤ δ := (abs_nonneg _).trans h1
  have h2 : |Real.log x| ≤ B + δ := by
    have := abs_add_le (Real.log x - Real.log x0) (Real.log x0); rw [sub_add_cancel] at this; linarith
  have h3 : |l - Real.log x| ≤ v * max 1 |Real.log x| := hr
  have h4 : v * max 1 |Real.log x| ≤ ε * (B + δ) :=
    mul_le_mul M.lib (max_le (by linarith) h2) (by positivity) M.eps_nonneg
  have := abs_add_le (l - Real.log x) (Real.log x - Real.log x0)
  rw [sub_add_sub_cancel] at this
  linarith

lemma bose_close (M : Machine P A v ε) {k x x' r : ℝ} (hk : 0 ≤ k) (hx : 0 < x) (h : Close (k * (1.001 * ε)) x' x)
    (hs : (1.05 * k * (1 + x) + 1.05 * (1 + 1 / x)) * ε ≤ 0.0099) (hr : r ∈ Rounded.bose A v x') :
    Close ((1.05 * k * (1 + x) + 1.05 * (1 + 1 / x) + 2) * (1.001 * ε)) r (1 / (Real.exp x - 1)) := by
  obtain ⟨e, he, y, hy, hr⟩ := hr
  have hε := M.eps_nonneg
  have hix : 0 < 1 / x := by positivity
  have hxi : x * (1 / x) = 1 := by field_simp
  have hex : x ≤ Real.exp x - 1 := by linarith [Real.add_one_le_exp x]
  have hE : Real.exp x ≤ (1 + 1 / x) * (Real.exp x - 1) := by
    have : 1 ≤ 1 / x * (Real.exp x - 1) := by rw [one_div, ← div_eq_inv_mul, one_le_div hx]; exact hex
    linarith
  generalize 1 / x = i at *
  have tv := M.tolv
  have tA := M.tolA
  obtain ⟨η, hη⟩ : ∃ η, η = 1.001 * ε := ⟨_, rfl⟩
  rw [← hη] at tv tA h ⊢
  have hη0 : 0 ≤ η := by rw [hη]; positivity
  have p0 : 0 ≤ (1.05 * k * (1 + x) + 1.05 * (1 + i)) := by positivity
  have hs' : (1.05 * k * (1 + x) + 1.05 * (1 + i)) * η ≤ 0.00991 := by
    rw [hη, mul_left_comm]; norm_num at hs p0 ⊢; linarith
  have p1 : 0 ≤ k * η := by positivity
  have p2 : 0 ≤ k * η * x := by positivity
  have p3 : 0 ≤ η * i := by positivity
  have p4 : (1.05 * k * (1 + x) + 1.05 * (1 + i)) * η = 1.05 * (k * η) + 1.05 * (k * η * x) + 1.05 * η + 1.05 * (η * i) := by ring
  rw [p4] at hs'
  norm_num at hs'
  have d1 : |x' - x| ≤ 1.01 * (k * η) * x := h.rel p1 (by linarith)
  have c1 := close_exp tv d1 he
  have d2 : |e - Real.exp x| ≤ 1.01 * (1.01 * (k * η) * x + η) * Real.exp x := by
    refine c1.rel (by positivity) ?_
    norm_num; linarith
  have hκ0 : 0 ≤ 1.01 * (1.01 * (k * η) * x + η) := by positivity
  have d3 : |e - 1 - (Real.exp x - 1)| ≤ (1.01 * (1.01 * (k * η) * x + η) * (1 + i)) * (Real.exp x - 1) := by
    rw [sub_sub_sub_cancel_right, mul_assoc]
    exact d2.trans (mul_le_mul_of_nonneg_left hE hκ0)
  have eκ : 1.01 * (1.01 * (k * η) * x + η) * (1 + i) = 1.0201 * (k * η * x) + 1.0201 * (k * η) + 1.01 * η + 1.01 * (η * i) := by
    have : k * η * x * i = k * η := by rw [mul_assoc, hxi, mul_one]
    norm_num; linear_combination (10201 / 10000) * this
  rw [eκ] at d3
  have c2 := Close.of_small (by linarith) (by positivity) (by norm_num; linarith) d3
  have c3 := (((Close.refl zero_le_one).div (c2.rnd tA hy)).rnd tA hr)
  refine c3.mono ?_
  rw [add_mul, p4]
  norm_num; linarith

lemma abs_log_h : |Real.log Blackbody.H_PLANCK| ≤ 77 := by
  have h1 := log10_bounds
  have e : Real.log Blackbody.H_PLANCK = Real.log 6.62607015 - 34 * Real.log 10 := by
    unfold Blackbody.H_PLANCK
    rw [show (6.62607015e-34:ℝ) = 6.62607015 / 10 ^ (34:ℕ) by norm_num, Real.log_div (by norm_num) (by norm_num), Real.log_pow]; norm_num
  have h2 : Real.log 6.62607015 ≤ Real.log 10 := Real.log_le_log (by norm_num) (by norm_num)
  have h3 : Real.log 4 ≤ Real.log 6.62607015 := Real.log_le_log (by norm_num) (by norm_num)
  have h4 : Real.log 4 = 2 * Real.log 2 := by rw [show (4:ℝ) = 2 ^ (2:ℕ) by norm_num, Real.log_pow]; norm_num
  have h5 := Real.log_two_gt_d9
  rw [e, abs_le]
  norm_num at h1 h5 ⊢
  constructor <;> linarith

lemma abs_log_c : |Real.log Blackbody.C_SPEED| ≤ 20 := by
  have h1 := log10_bounds
  have e : Real.log Blackbody.C_SPEED ≤ Real.log (4 * 10 ^ (8:ℕ)) := Real.log_le_log (by unfold Blackbody.C_SPEED; norm_num) (by unfold Blackbody.C_SPEED; norm_num)
  have e0 : 0 ≤ Real.log Blackbody.C_SPEED := Real.log_nonneg (by unfold Blackbody.C_SPEED; norm_num)
  have h4 : Real.log 4 = 2 * Real.log 2 := by rw [show (4:ℝ) = 2 ^ (2:ℕ) by norm_num, Real.log_pow]; norm_num
  have h5 := Real.log_two_lt_d9
  rw [Real.log_mul (by norm_num) (by norm_num), Real.log_pow, h4] at e
  rw [abs_of_nonneg e0]
  norm_num at h1 h5 e ⊢
  linarith

/-- the numpy constant `LG2 + LGH` -/
lemma lg2h_err (M : Machine P A v ε) {s : ℝ} (hs : s ∈ Rounded.lg2h P v) :
    |s - (Blackbody.LG2 + Blackbody.LGH)| ≤ 159 * ε ∧ |Blackbody.LG2 + Blackbody.LGH| ≤ 78 := by
  obtain ⟨a, ha, h, hh, b, hb, hs⟩ := hs
  have hε := M.eps_nonneg
  have h6 := M.small
  have hh0 : 0 < Blackbody.H_PLANCK := by unfold Blackbody.H_PLANCK; norm_num
  have l2 : |Real.log 2| ≤ 1 := by rw [abs_of_nonneg (Real.log_nonneg (by norm_num))]; linarith [Real.log_two_lt_d9]
  have e1 := log_abs M (by norm_num) (Close.refl zero_le_two) l2 le_rfl ha
  have e2 := log_abs M hh0 (pyrnd_close M hh0.le hh) abs_log_h (by norm_num) hb
  have hB : |Blackbody.LG2 + Blackbody.LGH| ≤ 78 := by
    have := abs_add_le (Real.log 2) (Real.log Blackbody.H_PLANCK)
    unfold Blackbody.LG2 Blackbody.LGH; linarith [abs_log_h]
  refine ⟨?_, hB⟩
  have e3 : |a + b - (Blackbody.LG2 + Blackbody.LGH)| ≤ 79.5 * ε := by
    have := abs_add_le (a - Real.log 2) (b - Real.log Blackbody.H_PLANCK)
    rw [show a - Real.log 2 + (b - Real.log Blackbody.H_PLANCK) = a + b - (Blackbody.LG2 + Blackbody.LGH) by
      unfold Blackbody.LG2 Blackbody.LGH; ring] at this
    refine this.trans ?_
    norm_num at e1 e2 h6 ⊢; nlinarith
  have e4 := rnd_abs M.python e3 hB hs
  refine e4.trans ?_
  norm_num at h6 ⊢; nlinarith

lemma twoLgc_err (M : Machine P A v ε) {s : ℝ} (hs : s ∈ Rounded.twoLgc P v) :
    |s - 2 * Blackbody.LGC| ≤ 83 * ε ∧ |2 * Blackbody.LGC| ≤ 40 := by
  obtain ⟨c, hc, l, hl, hs⟩ := hs
  have hε := M.eps_nonneg
  have h6 := M.small
  have hc0 : 0 < Blackbody.C_SPEED := by unfold Blackbody.C_SPEED; norm_num
  have e1 := log_abs M hc0 (pyrnd_close M hc0.le hc) abs_log_c (by norm_num) hl
  have hB : |2 * Blackbody.LGC| ≤ 40 := by
    rw [abs_mul]; unfold Blackbody.LGC; norm_num; linarith [abs_log_c]
  refine ⟨?_, hB⟩
  have e3 : |2 * l - 2 * Blackbody.LGC| ≤ 42.5 * ε := by
    rw [← mul_sub, abs_mul]
    unfold Blackbody.LGC
    norm_num at e1 h6 ⊢; nlinarith
  have e4 := rnd_abs M.python e3 hB hs
  refine e4.trans ?_
  norm_num at h6 ⊢; nlinarith

lemma term1_err (M : Machine P A v ε) {c c0 : ℝ} (h : |c - c0| ≤ 242 * ε) (hB : |c0| ≤ 118) {t : ℝ} (ht : t ∈ Rounded.conv A (P.rnd c)) :
    |t - c0| ≤ 479 * ε := by
  obtain ⟨p, hp, ht⟩ := ht
  have hε := M.eps_nonneg
  have h6 := M.small
  have e1 := rnd_abs M.python h hB hp
  have e2 : |p - c0| ≤ 360.5 * ε := by refine e1.trans ?_; norm_num at h6 ⊢; nlinarith
  refine (rnd_abs M.jax e2 hB ht).trans ?_
  norm_num at h6 ⊢; nlinarith

/-- the second term `n log x` of the exponent, and the sum -/
lemma exparg_err (M : Machine P A v ε) {δ n t c0 x x0 l m : ℝ} (hn : 1 ≤ n) (hn5 : n ≤ 5) (hδ0 : 0 ≤ δ) (hδ : δ ≤ 3.1 * ε) (ht : |t - c0| ≤ 479 * ε)
    (hB : |c0| ≤ 118) (hx0 : 0 < x0) (hx : Close δ x x0) (hl : l ∈ Rounded.log v x) (hm : m ∈ A.mul n l) :
    |m - n * Real.log x0| ≤ n * (2.01 * (1 + |Real.log x0|) + 3.2) * ε ∧ |t| ≤ 118.1 ∧
      |m| ≤ n * (1.01 * (1 + |Real.log x0|)) := by
  have hε := M.eps_nonneg
  have h6 := M.small
  have hL := abs_nonneg (Real.log x0)
  set L := |Real.log x0| with hLd
  have e1 := log_abs M hx0 hx (B := 1 + L) (by linarith) (by linarith) hl
  have e2 : |l - Real.log x0| ≤ (1 + L + 3.2) * ε := by
    refine e1.trans ?_
    have q1 : ε * δ ≤ ε * 0.01 := by refine mul_le_mul_of_nonneg_left ?_ hε; norm_num at h6 hδ ⊢; linarith
    norm_num at q1 hδ ⊢; linarith
  have e3 : |n * l - n * Real.log x0| ≤ n * ((1 + L + 3.2) * ε) := by
    rw [← mul_sub, abs_mul, abs_of_nonneg (by linarith : 0 ≤ n)]; gcongr
  have hnL : |n * Real.log x0| ≤ n * L := by rw [abs_mul, abs_of_nonneg (by linarith : 0 ≤ n)]
  have e4 := rnd_abs M.jax e3 hnL hm
  have e5 : |m - n * Real.log x0| ≤ n * (2.01 * (1 + L) + 3.2) * ε := by
    refine e4.trans ?_
    have q1 : (1 + L + 3.2) * ε ≤ 0.01 * (1 + L) := by norm_num at h6 ⊢; nlinarith
    have q2 : ε * (n * L + n * ((1 + L + 3.2) * ε)) ≤ ε * (n * L + n * (0.01 * (1 + L))) := by gcongr
    have q3 : 0 ≤ n * ε := by positivity
    have e : n * (2.01 * (1 + L) + 3.2) * ε = ε * (n * L + n * (0.01 * (1 + L))) + n * ((1 + L + 3.2) * ε) + n * ε := by ring
    rw [e]; linarith
  refine ⟨e5, ?_, ?_⟩
  · have := abs_add_le (t - c0) c0; rw [sub_add_cancel] at this; norm_num at h6 ⊢; linarith
  · have := abs_add_le (m - n * Real.log x0) (n * Real.log x0); rw [sub_add_cancel] at this
    have q : n * (2.01 * (1 + L) + 3.2) * ε ≤ n * (0.01 * (1 + L)) := by
      rw [mul_assoc]
      refine mul_le_mul_of_nonneg_left ?_ (by linarith)
      have := mul_le_mul_of_nonneg_left h6 hL
      norm_num at h6 this ⊢; linarith
    have e : n * (1.01 * (1 + L)) = n * (0.01 * (1 + L)) + n * L + n := by ring
    rw [e]; linarith

/-- Planck's constant etc. of the code are those of `photonRatio` -/
lemma bbx (nu T : ℝ) : Blackbody.H_PLANCK * nu / (Blackbody.K_BOLTZ * T) = photonRatio nu T := rfl

lemma freq_exparg (M : Machine P A v ε) {nu r : ℝ} (hnu : 0 < nu) (hr : r ∈ Rounded.jax_bb_freq_density_exparg P A v nu) :
    |r - Blackbody.jax_bb_freq_density_exparg nu| ≤ (618 + 9.3 * |Real.log nu|) * ε := by
  obtain ⟨a, ha, b, hb, t, ht, l, hl, m, hm, hr⟩ := hr
  have hε := M.eps_nonneg
  have h6 := M.small
  obtain ⟨a1, a2⟩ := lg2h_err M ha
  obtain ⟨b1, b2⟩ := twoLgc_err M hb
  set c0 := Blackbody.LG2 + Blackbody.LGH - 2 * Blackbody.LGC with hc0
  have hB : |c0| ≤ 118 := (abs_sub _ _).trans (by linarith)
  have e1 : |a - b - c0| ≤ 242 * ε := by
    rw [show a - b - c0 = (a - (Blackbody.LG2 + Blackbody.LGH)) - (b - 2 * Blackbody.LGC) by rw [hc0]; ring]
    exact (abs_sub _ _).trans (by linarith)
  have e2 := term1_err M e1 hB ht
  obtain ⟨e3, e4, e5⟩ := exparg_err M (n := 3) (by norm_num) (by norm_num) le_rfl (by positivity) e2 hB hnu (Close.refl hnu.le) hl hm
  have hr' := A.rel _ _ hr
  have hL := abs_nonneg (Real.log nu)
  have q1 : |t + m| ≤ 118.1 + 3 * (1.01 * (1 + |Real.log nu|)) := (abs_add_le _ _).trans (by linarith)
  have q2 := mul_le_mul M.jax q1 (abs_nonneg _) hε
  have key : |r - Blackbody.jax_bb_freq_density_exparg nu| ≤ |r - (t + m)| + (|t - c0| + |m - 3 * Real.log nu|) := by
    have w1 := abs_add_le (r - (t + m)) ((t - c0) + (m - 3 * Real.log nu))
    have w2 := abs_add_le (t - c0) (m - 3 * Real.log nu)
    rw [show r - (t + m) + (t - c0 + (m - 3 * Real.log nu)) = r - Blackbody.jax_bb_freq_density_exparg nu by
      simp only [Blackbody.jax_bb_freq_density_exparg]; rw [← hc0]; ring] at w1
    linarith
  refine key.trans ?_
  norm_num at q2 e3 hr' ⊢
  nlinarith [mul_nonneg hL hε]

lemma wave_exparg (M : Machine P A v ε) {w w0 : ℝ} (hw : 0 < w0) (hc : Close (3 * (1.001 * ε)) w w0) {a b t l m r : ℝ} (ha : a ∈ Rounded.lg2h P v)
    (hb : b ∈ Rounded.twoLgc P v) (ht : t ∈ Rounded.conv A (P.add a b)) (hl : l ∈ Rounded.log v w) (hm : m ∈ A.mul 5 l)
    (hr : r ∈ A.sub t m) :
    |r - (Blackbody.LG2 + Blackbody.LGH + 2 * Blackbody.LGC - 5 * Real.log w0)| ≤ (635 + 15.6 * |Real.log w0|) * ε := by
  have hε := M.eps_nonneg
  have h6 := M.small
  obtain ⟨a1, a2⟩ := lg2h_err M ha
  obtain ⟨b1, b2⟩ := twoLgc_err M hb
  set c0 := Blackbody.LG2 + Blackbody.LGH + 2 * Blackbody.LGC with hc0
  have hB : |c0| ≤ 118 := (abs_add_le _ _).trans (by linarith)
  have e1 : |a + b - c0| ≤ 242 * ε := by
    rw [show a + b - c0 = (a - (Blackbody.LG2 + Blackbody.LGH)) + (b - 2 * Blackbody.LGC) by rw [hc0]; ring]
    exact (abs_add_le _ _).trans (by linarith)
  have e2 := term1_err M e1 hB ht
  obtain ⟨e3, e4, e5⟩ := exparg_err M (n := 5) (by norm_num) (by norm_num) (by positivity) (by norm_num; linarith) e2 hB hw hc hl hm
  have hr' := A.rel _ _ hr
  have hL := abs_nonneg (Real.log w0)
  have q1 : |t - m| ≤ 118.1 + 5 * (1.01 * (1 + |Real.log w0|)) := (abs_sub _ _).trans (by linarith)
  have q2 := mul_le_mul M.jax q1 (abs_nonneg _) hε
  have key : |r - (c0 - 5 * Real.log w0)| ≤ |r - (t - m)| + (|t - c0| + |m - 5 * Real.log w0|) := by
    have w1 := abs_add_le (r - (t - m)) ((t - c0) - (m - 5 * Real.log w0))
    have w2 := abs_sub (t - c0) (m - 5 * Real.log w0)
    rw [show r - (t - m) + (t - c0 - (m - 5 * Real.log w0)) = r - (c0 - 5 * Real.log w0) by ring] at w1
    linarith
  refine key.trans ?_
  norm_num at q2 e3 hr' ⊢
  nlinarith [mul_nonneg hL hε]

lemma photonRatio_pos {nu T : ℝ} (hnu : 0 < nu) (hT : 0 < T) : 0 < photonRatio nu T := by unfold photonRatio; positivity

/-- C128: the spectrum per unit frequency. -/
theorem C128_freq_density (M : Machine P A v ε) {nu T : ℝ} (hnu : 0 < nu) (hT : 0 < T) (hK : bbNuCost nu T * ε ≤ 0.0099) {r : ℝ}
    (hr : r ∈ Rounded.blackbody_freq_density P A v nu T) :
    |r - planckNu 6.62607015e-34 1.380649e-23 299792458 nu T / 3.828e26|
      ≤ 1.02 * bbNuCost nu T * ε * (planckNu 6.62607015e-34 1.380649e-23 299792458 nu T / 3.828e26) := by
  rw [← (C60_planck hnu T).1]
  obtain ⟨B, ⟨g, hg, den, ⟨h', hh, hn, hhn, k', hk, kt, hkt, x', hx', hden⟩, e, he, hB⟩, w, hw, hr⟩ := hr
  have hε := M.eps_nonneg
  have hx0 := photonRatio_pos hnu hT
  have hix : 0 < (photonRatio nu T)⁻¹ := by positivity
  have hL := abs_nonneg (Real.log nu)
  have ch := lit_close M (by unfold Blackbody.H_PLANCK; norm_num) hh
  have ck := lit_close M (by unfold Blackbody.K_BOLTZ; norm_num) hk
  have c1 := (ch.mul (Close.refl hnu.le)).rnd M.tolA hhn
  have c2 := (ck.mul (Close.refl hT.le)).rnd M.tolA hkt
  have cx : Close (7 * (1.001 * ε)) x' (photonRatio nu T) := by
    rw [← bbx]; exact ((c1.div c2).rnd M.tolA hx').mono (by linarith)
  have hK' : (1.05 * 7 * (1 + photonRatio nu T) + 1.05 * (1 + 1 / photonRatio nu T)) * ε ≤ 0.0099 := by
    refine le_trans (mul_le_mul_of_nonneg_right ?_ hε) hK
    unfold bbNuCost; norm_num; linarith
  have cb := bose_close M (by norm_num) hx0 cx hK' hden
  have ce := close_exp M.tolv (freq_exparg M hnu hg) he
  have cB := (cb.mul ce).rnd M.tolA hB
  have cw := lit_close M (by unfold Blackbody.WATTS_PER_LSUN; norm_num) hw
  have cr := (cB.div cw).rnd M.tolA hr
  refine M.rel (K := bbNuCost nu T) ?_ ?_ hK
  · refine Close.mono (δ := _) (x := Blackbody.blackbody_freq_density nu T) cr ?_
    have q : (618 + 9.3 * |Real.log nu|) * ε ≤ (618 + 9.3 * |Real.log nu|) * (1.001 * ε) :=
      mul_le_mul_of_nonneg_left (by norm_num; linarith) (by positivity)
    have e : (1.05 * 7 * (1 + photonRatio nu T) + 1.05 * (1 + 1 / photonRatio nu T) + 2) * (1.001 * ε) +
        ((618 + 9.3 * |Real.log nu|) * (1.001 * ε) + 1.001 * ε) + 1.001 * ε + 2 * (1.001 * ε) + 1.001 * ε ≤ bbNuCost nu T * (1.001 * ε) := by
      have : 1.05 * 7 * (1 + photonRatio nu T) + 1.05 * (1 + 1 / photonRatio nu T) + 2 + (618 + 9.3 * |Real.log nu|) + 5 ≤ bbNuCost nu T := by
        unfold bbNuCost; norm_num; linarith
      have := mul_le_mul_of_nonneg_right this (show 0 ≤ 1.001 * ε by positivity)
      linarith
    linarith
  · unfold bbNuCost; positivity

/-- C128: the spectrum per unit wavelength (in angstroms). -/
theorem C128_wave_density (M : Machine P A v ε) {lam T : ℝ} (hl : 0 < lam) (hT : 0 < T) (hK : bbLambdaCost lam T * ε ≤ 0.0099) {r : ℝ}
    (hr : r ∈ Rounded.blackbody_wave_density P A v lam T) :
    |r - planckLambda 6.62607015e-34 1.380649e-23 299792458 (lam * 1e-10) T / 3.828e26 * 1e-10|
      ≤ 1.02 * bbLambdaCost lam T * ε * (planckLambda 6.62607015e-34 1.380649e-23 299792458 (lam * 1e-10) T / 3.828e26 * 1e-10) := by
  rw [← (C60_planck hl T).2]
  obtain ⟨t, ht, wm, hwm, B, ⟨den, ⟨h', hh, c', hc, hc', hhc, k', hk, kt, hkt, q, hq, x', hx', hden⟩, a, ha, b, hb, t1, ht1, l, hll, m, hm, g, hg,
    e, he, hB⟩, w, hw, Bm, hBm, aa, haa, hr⟩ := hr
  have hε := M.eps_nonneg
  have hlm : 0 < lam * 1e-10 := by positivity
  have elm : lam / 1e10 = lam * 1e-10 := by norm_num; ring
  have hx0 : 0 < photonRatio (299792458 / (lam * 1e-10)) T := photonRatio_pos (by positivity) hT
  have ex : Blackbody.H_PLANCK * Blackbody.C_SPEED / (Blackbody.K_BOLTZ * T) / (lam / 1e10) = photonRatio (299792458 / (lam * 1e-10)) T := by
    rw [elm]; unfold photonRatio Blackbody.H_PLANCK Blackbody.C_SPEED Blackbody.K_BOLTZ
    rw [show (299792458.0:ℝ) = 299792458 by norm_num]
    have h1 : (1.380649e-23:ℝ) ≠ 0 := by norm_num
    have h2 : (1e-10:ℝ) ≠ 0 := by norm_num
    generalize (1.380649e-23:ℝ) = kb at *
    generalize (1e-10:ℝ) = w at *
    generalize (6.62607015e-34:ℝ) = hp at *
    field_simp
  have hix : 0 < (photonRatio (299792458 / (lam * 1e-10)) T)⁻¹ := by positivity
  have hL := abs_nonneg (Real.log (lam * 1e-10))
  have ct := lit_close M (show (0:ℝ) ≤ 1e10 by norm_num) ht
  have cwm : Close (3 * (1.001 * ε)) wm (lam / 1e10) := (((Close.refl hl.le).div ct).rnd M.tolA hwm).mono (by linarith)
  have ch := pyrnd_close M (by unfold Blackbody.H_PLANCK; norm_num) hh
  have cc := pyrnd_close M (by unfold Blackbody.C_SPEED; norm_num) hc
  have chc := conv_close M (k := 3) (fun p hp => ((ch.mul cc).rnd M.tolP hp).mono (by linarith)) hhc
  have ck := lit_close M (by unfold Blackbody.K_BOLTZ; norm_num) hk
  have c2 := (ck.mul (Close.refl hT.le)).rnd M.tolA hkt
  have cq := (chc.div c2).rnd M.tolA hq
  have cx : Close (12 * (1.001 * ε)) x' (photonRatio (299792458 / (lam * 1e-10)) T) := by
    rw [← ex]; exact ((cq.div cwm).rnd M.tolA hx').mono (by linarith)
  have hK' : (1.05 * 12 * (1 + photonRatio (299792458 / (lam * 1e-10)) T) + 1.05 * (1 + 1 / photonRatio (299792458 / (lam * 1e-10)) T)) * ε ≤ 0.0099 := by
    refine le_trans (mul_le_mul_of_nonneg_right ?_ hε) hK
    unfold bbLambdaCost
    generalize photonRatio (299792458 / (lam * 1e-10)) T = y at *
    generalize |Real.log (lam * 1e-10)| = L at *
    norm_num; linarith
  have cb := bose_close M (by norm_num) hx0 cx hK' hden
  have cg := wave_exparg M (w0 := lam / 1e10) (by positivity) cwm ha hb ht1 hll hm hg
  have ce := close_exp M.tolv cg he
  have cB := (ce.mul cb).rnd M.tolA hB
  have cw := lit_close M (by unfold Blackbody.WATTS_PER_LSUN; norm_num) hw
  have cBm := (cB.div cw).rnd M.tolA hBm
  have caa := lit_close M (show (0:ℝ) ≤ 1e-10 by norm_num) haa
  have cr := (cBm.mul caa).rnd M.tolA hr
  rw [← ex] at cr
  refine M.rel (K := bbLambdaCost lam T) ?_ ?_ hK
  · refine Close.mono (δ := _) (x := Blackbody.blackbody_wave_density lam T) cr ?_
    rw [elm] at *
    rw [elm] at ex
    rw [ex]
    unfold bbLambdaCost
    generalize photonRatio (299792458 / (lam * 1e-10)) T = y at *
    generalize |Real.log (lam * 1e-10)| = L at *
    have q : (635 + 15.6 * L) * ε ≤ (635 + 15.6 * L) * (1.001 * ε) :=
      mul_le_mul_of_nonneg_left (by norm_num; linarith) (by positivity)
    have : 1.05 * 12 * (1 + y) + 1.05 * (1 + 1 / y) + 2 + (635 + 15.6 * L) + 10 ≤
        690 + 15.6 * L + 12.8 * (1 + y) + 1.1 * (1 + 1 / y) := by
      norm_num; linarith
    have := mul_le_mul_of_nonneg_right this (show 0 ≤ 1.001 * ε by positivity)
    linarith
  · unfold bbLambdaCost; positivity

/-- C128: **double precision.**  For photon energies between 1e-4 and 100 thermal energies and frequencies between 1e8 and 1e18 Hz the spectrum
is accurate to 1.3e-11. -/
theorem C128_float64 (H : Float64 P A v) {nu T : ℝ} (hnu : 1e8 ≤ nu) (hnu' : nu ≤ 1e18) (hT : 0 < T) (hx : 1e-4 ≤ photonRatio nu T)
    (hx' : photonRatio nu T ≤ 100) {r : ℝ} (hr : r ∈ Rounded.blackbody_freq_density P A v nu T) :
    |r - planckNu 6.62607015e-34 1.380649e-23 299792458 nu T / 3.828e26|
      ≤ 1.3e-11 * (planckNu 6.62607015e-34 1.380649e-23 299792458 nu T / 3.828e26) := by
  have hnu0 : 0 < nu := lt_of_lt_of_le (by norm_num) hnu
  have hL : |Real.log nu| ≤ 42 := by
    have h0 : 0 ≤ Real.log nu := Real.log_nonneg (le_trans (by norm_num) hnu)
    have h1 : Real.log nu ≤ Real.log (10 ^ (18:ℕ)) := Real.log_le_log hnu0 (hnu'.trans (by norm_num))
    rw [Real.log_pow] at h1
    have := log10_bounds.2
    rw [abs_of_nonneg h0]; norm_num at h1 this ⊢; linarith
  have hK : bbNuCost nu T ≤ 12780 := by
    unfold bbNuCost
    have : 1 / photonRatio nu T ≤ 1e4 := by
      rw [div_le_iff₀ (lt_of_lt_of_le (by norm_num) hx)]; norm_num at hx ⊢; linarith
    generalize 1 / photonRatio nu T = i at *
    norm_num at *; linarith
  have hp : 0 ≤ planckNu 6.62607015e-34 1.380649e-23 299792458 nu T / 3.828e26 := by
    rw [← (C60_planck hnu0 T).1]; exact (C60_positive hnu0 hT).1.le
  refine (C128_freq_density H.machine hnu0 hT ?_ hr).trans (mul_le_mul_of_nonneg_right ?_ hp)
  · refine (mul_le_mul_of_nonneg_right hK (by positivity)).trans (by norm_num)
  · calc 1.02 * bbNuCost nu T * 2 ^ (-50:ℤ) ≤ 1.02 * 12780 * 2 ^ (-50:ℤ) := by gcongr
      _ ≤ _ := by norm_num

/-- C128: **the far Rayleigh-Jeans tail is lost.**  In binary64 with a correctly rounded exponential, for `0 < hν/kT ≤ 2^-54` the computed
exponential is exactly 1 and the computed denominator `exp(x) - 1` exactly 0 (so the result is infinite), while Planck's law is finite and
positive. -/
theorem C128_denominator_vanishes {x : ℝ} (h0 : 0 < x) (hx : x ≤ (1 / 2) ^ 54) :
    nearest 53 (Real.exp x) = 1 ∧ nearest 53 (nearest 53 (Real.exp x) - 1) = 0 ∧ 0 < Real.exp x - 1 := by
  have h1 : 1 < Real.exp x := Real.one_lt_exp_iff.2 h0
  have hx1 : x ≤ 1 := hx.trans (by norm_num)
  have h2 : Real.exp x ≤ 1 + 1.5 * x := by
    have := Real.abs_exp_sub_one_sub_id_le (x := x) (by rw [abs_of_pos h0]; exact hx1)
    have := (abs_le.1 this).2
    have : x ^ 2 ≤ x * (1 / 2) ^ 54 := by rw [sq]; exact mul_le_mul_of_nonneg_left hx h0.le
    norm_num at *; linarith
  have hlog : Int.log 2 |Real.exp x| = 0 := by
    rw [abs_of_pos (Real.exp_pos _)]
    have ha : 0 < Real.exp x := Real.exp_pos _
    apply le_antisymm
    · have : Int.log 2 (Real.exp x) < 1 := by
        rw [← Int.lt_zpow_iff_log_lt (by norm_num) ha]; norm_num at hx h2 ⊢; linarith
      omega
    · rw [← Int.zpow_le_iff_le_log (by norm_num) ha]; norm_num; exact h0.le
  have e : nearest 53 (Real.exp x) = 1 := by
    unfold nearest quantum
    rw [hlog]
    have : round (Real.exp x / (2:ℝ) ^ ((0:ℤ) - (53:ℕ) + 1)) = 2 ^ 52 := by
      rw [round_eq, Int.floor_eq_iff]
      norm_num at hx h2 ⊢
      constructor <;> linarith
    rw [this]; norm_num
  refine ⟨e, ?_, by linarith⟩
  rw [e, sub_self, nearest_zero]

/-- The machine programs have results: the theorems above are not about empty sets. -/
theorem C128_results_exist (hv : 0 ≤ v) (hA : ∀ x, (A.rnd x).Nonempty) (hP : ∀ x, (P.rnd x).Nonempty) (nu lam T : ℝ) :
    (Rounded.blackbody_freq_density P A v nu T).Nonempty ∧ (Rounded.blackbody_wave_density P A v lam T).Nonempty := by
  have hlit : ∀ x, (Rounded.lit P A x).Nonempty := fun x => by
    obtain ⟨p, hp⟩ := hP x; obtain ⟨q, hq⟩ := hA p; exact ⟨q, p, hp, hq⟩
  have hconv : ∀ x, (Rounded.conv A (P.rnd x)).Nonempty := hlit
  have hlog : ∀ x, Real.log x ∈ Rounded.log v x := fun x => by
    show |Real.log x - Real.log x| ≤ _; rw [sub_self, abs_zero]; positivity
  have hexp : ∀ x, Real.exp x ∈ Rounded.exp v x := fun x => by
    show |Real.exp x - Real.exp x| ≤ _; rw [sub_self, abs_zero]; positivity
  have hbose : ∀ x, (Rounded.bose A v x).Nonempty := fun x => by
    obtain ⟨y, hy⟩ := hA (Real.exp x - 1); obtain ⟨r, hr⟩ := hA (1 / y); exact ⟨r, _, hexp x, y, hy, hr⟩
  obtain ⟨a, ha⟩ : (Rounded.lg2h P v).Nonempty := by
    obtain ⟨h, hh⟩ := hP Blackbody.H_PLANCK; obtain ⟨s, hs⟩ := hP (Real.log 2 + Real.log h); exact ⟨s, _, hlog 2, h, hh, _, hlog h, hs⟩
  obtain ⟨b, hb⟩ : (Rounded.twoLgc P v).Nonempty := by
    obtain ⟨c, hc⟩ := hP Blackbody.C_SPEED; obtain ⟨s, hs⟩ := hP (2 * Real.log c); exact ⟨s, c, hc, _, hlog c, hs⟩
  obtain ⟨h', hh⟩ := hlit Blackbody.H_PLANCK
  obtain ⟨k', hk⟩ := hlit Blackbody.K_BOLTZ
  obtain ⟨kt, hkt⟩ := hA (k' * T)
  obtain ⟨w, hw⟩ := hlit Blackbody.WATTS_PER_LSUN
  constructor
  · obtain ⟨hn, hhn⟩ := hA (h' * nu)
    obtain ⟨x, hx⟩ := hA (hn / kt)
    obtain ⟨den, hden⟩ := hbose x
    obtain ⟨t, ht⟩ := hconv (a - b)
    obtain ⟨m, hm⟩ := hA (3 * Real.log nu)
    obtain ⟨g, hg⟩ := hA (t + m)
    obtain ⟨B, hB⟩ := hA (den * Real.exp g)
    obtain ⟨r, hr⟩ := hA (B / w)
    exact ⟨r, B, ⟨g, ⟨a, ha, b, hb, t, ht, _, hlog nu, m, hm, hg⟩, den, ⟨h', hh, hn, hhn, k', hk, kt, hkt, x, hx, hden⟩, _, hexp g, hB⟩, w, hw, hr⟩
  · obtain ⟨t, ht⟩ := hlit 1e10
    obtain ⟨wm, hwm⟩ := hA (lam / t)
    obtain ⟨h0, hh0⟩ := hP Blackbody.H_PLANCK
    obtain ⟨c0, hc0⟩ := hP Blackbody.C_SPEED
    obtain ⟨hc, hhc⟩ := hconv (h0 * c0)
    obtain ⟨q, hq⟩ := hA (hc / kt)
    obtain ⟨x, hx⟩ := hA (q / wm)
    obtain ⟨den, hden⟩ := hbose x
    obtain ⟨t1, ht1⟩ := hconv (a + b)
    obtain ⟨m, hm⟩ := hA (5 * Real.log wm)
    obtain ⟨g, hg⟩ := hA (t1 - m)
    obtain ⟨B, hB⟩ := hA (Real.exp g * den)
    obtain ⟨Bm, hBm⟩ := hA (B / w)
    obtain ⟨aa, haa⟩ := hlit 1e-10
    obtain ⟨r, hr⟩ := hA (Bm * aa)
    exact ⟨r, t, ht, wm, hwm, B, ⟨den, ⟨h0, hh0, c0, hc0, hc, hhc, k', hk, kt, hkt, q, hq, x, hx, hden⟩, a, ha, b, hb, t1, ht1, _, hlog wm, m, hm, g, hg,
      _, hexp g, hB⟩, w, hw, Bm, hBm, aa, haa, hr⟩

/-- case: 5000 angstroms (6e14 Hz) at 5772 K in double precision: the photon energy is about five times the thermal energy -/
example {r : ℝ} (hr : r ∈ Rounded.blackbody_freq_density f64 f64 (2 ^ (-50:ℤ)) 6e14 5772) :=
  C128_float64 float64_ieee (by norm_num) (by norm_num) (by norm_num) (by unfold photonRatio; norm_num) (by unfold photonRatio; norm_num) hr

/-- case: the same spectrum per angstrom -/
example {r : ℝ} (hr : r ∈ Rounded.blackbody_wave_density f64 f64 (2 ^ (-50:ℤ)) 5000 5772) :=
  C128_wave_density float64_ieee.machine (lam := 5000) (T := 5772) (by norm_num) (by norm_num) (by
    unfold bbLambdaCost photonRatio
    have h1 := log10_bounds
    have : |Real.log (5000 * 1e-10)| ≤ 24 := by
      have e0 : Real.log (5000 * 1e-10) ≤ 0 := Real.log_nonpos (by norm_num) (by norm_num)
      have e1 : Real.log (5000 * 1e-10) = -Real.log 2000000 := by rw [← Real.log_inv]; norm_num
      have e2 : Real.log 2000000 ≤ Real.log (10 ^ (7:ℕ)) := Real.log_le_log (by norm_num) (by norm_num)
      rw [Real.log_pow] at e2
      rw [abs_of_nonpos e0, e1]; norm_num at h1 e2 ⊢; linarith
    generalize |Real.log (5000 * 1e-10)| = L at *
    norm_num at *; linarith) hr

example := C128_denominator_vanishes (x := (1 / 2) ^ 60) (by positivity) (by norm_num)

end Dsps.Props
