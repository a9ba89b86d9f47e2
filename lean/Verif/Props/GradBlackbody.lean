import Mathlib.Analysis.SpecialFunctions.Trigonometric.DerivHyp
import Verif.Lemmas.Rev
import Verif.Lemmas.Range
import Verif.Model.GenBlackbody

/-! Property C125: gradients of the blackbody spectrum, in exact arithmetic and with the exponent range of floats. -/
namespace Dsps.Props
open Rev XF Dsps.Lemmas Dsps.Blackbody Range

/-! ### Exact arithmetic -/

section exact
variable {ι : Type} [Fintype ι] {θ : ι → ℝ} {a b : Rv ι} {f g : (ι → ℝ) → ℝ}

/-- C125: without a limit on the exponent range, value and gradient of the frequency density are exact for every positive frequency and temperature. -/
theorem C125_freq_exact (ha : Traced True a f θ) (hb : Traced True b g θ) (hf : 0 < f θ) (hg : 0 < g θ) :
    Traced True (Gen.blackbody_freq_density a b) (fun θ => blackbody_freq_density (f θ) (g θ)) θ := by
  have hk : (0:ℝ) < K_BOLTZ := by norm_num [K_BOLTZ]
  have hh : (0:ℝ) < H_PLANCK := by norm_num [H_PLANCK]
  have hx : 0 < H_PLANCK * f θ / (K_BOLTZ * g θ) := by positivity
  have hu : Real.exp (H_PLANCK * f θ / (K_BOLTZ * g θ)) - 1 ≠ 0 := by
    have := Real.add_one_lt_exp hx.ne'; linarith
  exact (((Traced.lit 1).div ((((Traced.lit H_PLANCK).mul ha).div ((Traced.lit K_BOLTZ).mul hb) (by positivity)).exp.sub (Traced.lit 1)) hu).mul
    ((Traced.lit (LG2 + LGH - 2 * LGC)).add ((Traced.lit 3).mul (ha.log hf))).exp).div (Traced.lit WATTS_PER_LSUN)
    (by norm_num [WATTS_PER_LSUN])

/-- C125: the same for the wavelength density. -/
theorem C125_wave_exact (ha : Traced True a f θ) (hb : Traced True b g θ) (hf : 0 < f θ) (hg : 0 < g θ) :
    Traced True (Gen.blackbody_wave_density a b) (fun θ => blackbody_wave_density (f θ) (g θ)) θ := by
  have hk : (0:ℝ) < K_BOLTZ := by norm_num [K_BOLTZ]
  have hh : (0:ℝ) < H_PLANCK := by norm_num [H_PLANCK]
  have hc : (0:ℝ) < C_SPEED := by norm_num [C_SPEED]
  have hx : 0 < H_PLANCK * C_SPEED / (K_BOLTZ * g θ) / (f θ / 1e10) := by positivity
  have hu : Real.exp (H_PLANCK * C_SPEED / (K_BOLTZ * g θ) / (f θ / 1e10)) - 1 ≠ 0 := by
    have := Real.add_one_lt_exp hx.ne'; linarith
  have hw := ha.div (Traced.lit 1e10) (by norm_num)
  have hw0 : 0 < f θ / 1e10 := by positivity
  exact (((((Traced.lit (LG2 + LGH + 2 * LGC)).sub ((Traced.lit 5).mul (hw.log hw0))).exp).mul
    ((Traced.lit 1).div ((((Traced.lit (H_PLANCK * C_SPEED)).div ((Traced.lit K_BOLTZ).mul hb) (by positivity)).div hw hw0.ne').exp.sub
      (Traced.lit 1)) hu)).div (Traced.lit WATTS_PER_LSUN) (by norm_num [WATTS_PER_LSUN])).mul (Traced.lit 1e-10)

end exact

/-! ### With the exponent range of a format -/

section ranged
variable {R : Range} {ι : Type} {i : ι} {a b : RvO (Ranged R) ι}

/-- the exponential overflows: `1 / (exp x - 1)` back-propagates nan -/
theorem denom_nan {x : RvO (Ranged R) ι} (hx : (Flt.exp x : RvO (Ranged R) ι).v.x = inf false) (hn : x.back (nanR R) i = nanR R)
    (ct : Ranged R) : (Flt.lit 1 / (Flt.exp x - Flt.lit 1) : RvO (Ranged R) ι).back ct i = nanR R := by
  have h1 : Rep (Flt.lit 1 : Ranged R).x 1 := (is_lit (Or.inr ⟨by rw [abs_one]; exact R.tiny_le, by rw [abs_one]; exact R.max_ge⟩)).1
  have hu : (Flt.exp x - Flt.lit 1 : RvO (Ranged R) ι).v.x = inf false := by
    show R.fit ((Flt.exp x : RvO (Ranged R) ι).v.x - (Flt.lit 1 : Ranged R).x) = _
    rw [hx, h1.inf_sub]; rfl
  obtain ⟨u, hU⟩ : ∃ u, u = (Flt.exp x - Flt.lit 1 : RvO (Ranged R) ι) := ⟨_, rfl⟩
  rw [← hU] at hu ⊢
  have hw : Rep (Flt.lit 1 / (u.v * u.v) : Ranged R).x 0 := by
    show Rep (R.fit ((Flt.lit 1 : Ranged R).x / R.fit (u.v.x * u.v.x))) 0
    rw [hu]
    exact rep_fit (h1.div_inf false) (Or.inl rfl)
  show (Flt.lit 0 : Ranged R) + u.back (-ct * Flt.lit 1 * (Flt.lit 1 / (u.v * u.v))) i = nanR R
  have hb : ∀ c, u.back c i = x.back (c * (Flt.exp x : RvO (Ranged R) ι).v) i + Flt.lit 0 := fun c => by rw [hU]; rfl
  rw [hb, mul_zero_inf hw ⟨false, hx⟩, hn, nan_addR, add_nanR]

theorem exp_overflow {x : RvO (Ranged R) ι} {y : ℝ} (h : x.v.x = R.fit (fin y)) (h0 : 1 ≤ y) (hy : R.max < Real.exp y) :
    (Flt.exp x : RvO (Ranged R) ι).v.x = inf false := by
  show R.fit (XF.exp x.v.x) = _
  rw [h]
  by_cases hm : R.max < y
  · rw [fit_over hm]; rfl
  · have : R.In y := ⟨by rw [abs_of_pos (by linarith)]; exact R.tiny_le.trans h0, by rw [abs_of_pos (by linarith)]; exact not_lt.1 hm⟩
    rw [R.fit_in this]
    show R.fit (fin (Real.exp y)) = _
    exact fit_over hy

/-- `x` of the frequency density -/
noncomputable def freqArg (a b : RvO (Ranged R) ι) : RvO (Ranged R) ι :=
  (Flt.lit H_PLANCK * a) / (Flt.lit K_BOLTZ * b)
/-- `x` of the wavelength density -/
noncomputable def waveArg (a b : RvO (Ranged R) ι) : RvO (Ranged R) ι :=
  Flt.lit (H_PLANCK * C_SPEED) / (Flt.lit K_BOLTZ * b) / a

theorem freqArg_v {ν T : ℝ} (ha : a.v.x = fin ν) (hb : b.v.x = fin T) (hT : 0 < T) (h1 : R.In H_PLANCK)
    (h2 : R.In K_BOLTZ) (h3 : R.In (H_PLANCK * ν)) (h4 : R.In (K_BOLTZ * T)) :
    (freqArg a b).v.x = R.fit (fin (H_PLANCK * ν / (K_BOLTZ * T))) := by
  have hk : (0:ℝ) < K_BOLTZ := by norm_num [K_BOLTZ]
  have m1 : ((Flt.lit H_PLANCK : Ranged R) * a.v).x = fin (H_PLANCK * ν) := by
    show R.fit (R.fit (fin H_PLANCK) * a.v.x) = _
    rw [R.fit_in h1, ha]
    rcases (Rep.fin H_PLANCK).mul (Rep.fin ν) with h | ⟨h, h0⟩
    · rw [h, R.fit_in h3]
    · rw [h0] at h3; have := h3.1; rw [abs_zero] at this; exact absurd R.tiny_pos this.not_gt
  have m2 : ((Flt.lit K_BOLTZ : Ranged R) * b.v).x = fin (K_BOLTZ * T) := by
    show R.fit (R.fit (fin K_BOLTZ) * b.v.x) = _
    rw [R.fit_in h2, hb]
    rcases (Rep.fin K_BOLTZ).mul (Rep.fin T) with h | ⟨h, h0⟩
    · rw [h, R.fit_in h4]
    · exact absurd h0 (by positivity)
  show R.fit (((Flt.lit H_PLANCK : Ranged R) * a.v).x / ((Flt.lit K_BOLTZ : Ranged R) * b.v).x) = _
  rw [m1, m2]
  rcases (Rep.fin (H_PLANCK * ν)).div (Rep.fin (K_BOLTZ * T)) (by positivity) with h | ⟨h, h0⟩
  · rw [h]
  · have : H_PLANCK * ν = 0 := by
      rcases div_eq_zero_iff.1 h0 with h | h
      · exact h
      · exact absurd h (by positivity)
    rw [this] at h3; have := h3.1; rw [abs_zero] at this; exact absurd R.tiny_pos this.not_gt

theorem waveArg_v {lam T : ℝ} (ha : a.v.x = fin lam) (hb : b.v.x = fin T) (hl : 0 < lam) (hT : 0 < T) (h1 : R.In (H_PLANCK * C_SPEED))
    (h2 : R.In K_BOLTZ) (h3 : R.In (K_BOLTZ * T)) (h4 : R.In (H_PLANCK * C_SPEED / (K_BOLTZ * T))) :
    (waveArg a b).v.x = R.fit (fin (H_PLANCK * C_SPEED / (K_BOLTZ * T) / lam)) := by
  have hk : (0:ℝ) < K_BOLTZ := by norm_num [K_BOLTZ]
  have hc : (0:ℝ) < H_PLANCK * C_SPEED := by norm_num [H_PLANCK, C_SPEED]
  have m2 : ((Flt.lit K_BOLTZ : Ranged R) * b.v).x = fin (K_BOLTZ * T) := by
    show R.fit (R.fit (fin K_BOLTZ) * b.v.x) = _
    rw [R.fit_in h2, mul_fit rfl hb (by positivity), R.fit_in h3]
  have m3 : ((Flt.lit (H_PLANCK * C_SPEED) : Ranged R) / ((Flt.lit K_BOLTZ : Ranged R) * b.v)).x =
      fin (H_PLANCK * C_SPEED / (K_BOLTZ * T)) := by
    show R.fit (R.fit (fin (H_PLANCK * C_SPEED)) / ((Flt.lit K_BOLTZ : Ranged R) * b.v).x) = _
    rw [R.fit_in h1, div_fit rfl m2 (by positivity) (by positivity), R.fit_in h4]
  show R.fit (((Flt.lit (H_PLANCK * C_SPEED) : Ranged R) / ((Flt.lit K_BOLTZ : Ranged R) * b.v)).x / a.v.x) = _
  rw [div_fit m3 ha hl.ne' (by positivity)]

/-- nan passes back through `x` to whatever the frequency and the temperature depend on -/
theorem freqArg_back (hn : a.back (nanR R) i = nanR R ∨ b.back (nanR R) i = nanR R) : (freqArg a b).back (nanR R) i = nanR R := by
  show ((Flt.lit 0 : Ranged R) + a.back (nanR R / _ * _) i) + ((Flt.lit 0 : Ranged R) + b.back (-nanR R * _ * _ * _) i) = nanR R
  rw [nan_divR, nan_mulR, neg_nanR, nan_mulR, nan_mulR, nan_mulR]
  rcases hn with h | h <;> rw [h]
  · rw [add_nanR, nan_addR]
  · rw [add_nanR, add_nanR]

theorem waveArg_back (hn : a.back (nanR R) i = nanR R ∨ b.back (nanR R) i = nanR R) : (waveArg a b).back (nanR R) i = nanR R := by
  show ((Flt.lit 0 : Ranged R) + ((Flt.lit 0 : Ranged R) + b.back (-(nanR R / _) * _ * _ * _) i)) + a.back (-nanR R * _ * _) i = nanR R
  rw [nan_divR, neg_nanR, nan_mulR, nan_mulR, nan_mulR, nan_mulR, nan_mulR]
  rcases hn with h | h <;> rw [h]
  · rw [add_nanR]
  · rw [add_nanR, add_nanR, nan_addR]

theorem freq_nan (h : (Flt.exp (freqArg a b) : RvO (Ranged R) ι).v.x = inf false)
    (hn : a.back (nanR R) i = nanR R ∨ b.back (nanR R) i = nanR R) (ct : Ranged R) :
    (Gen.blackbody_freq_density a b).back ct i = nanR R := by
  show ((Flt.lit 1 / (Flt.exp (freqArg a b) - Flt.lit 1) : RvO (Ranged R) ι).back _ i + _) + _ = nanR R
  rw [denom_nan h (freqArg_back hn), nan_addR, nan_addR]

theorem wave_nan {a' : RvO (Ranged R) ι} (ha : a' = a / Flt.lit 1e10) (h : (Flt.exp (waveArg a' b) : RvO (Ranged R) ι).v.x = inf false)
    (hn : a.back (nanR R) i = nanR R ∨ b.back (nanR R) i = nanR R) (ct : Ranged R) :
    (Gen.blackbody_wave_density a b).back ct i = nanR R := by
  have hn' : a'.back (nanR R) i = nanR R ∨ b.back (nanR R) i = nanR R := by
    refine hn.imp_left fun h => ?_
    rw [ha]
    show a.back (nanR R / _) i + _ = nanR R
    rw [nan_divR, h, nan_addR]
  subst ha
  show ((_ + (Flt.lit 1 / (Flt.exp (waveArg (a / Flt.lit 1e10) b) - Flt.lit 1) : RvO (Ranged R) ι).back _ i) + _) + _ = nanR R
  rw [denom_nan h (waveArg_back hn'), add_nanR, nan_addR, nan_addR]

/-- the value is zero when the exponential overflows -/
theorem denom_zero {x : RvO (Ranged R) ι} (hx : (Flt.exp x : RvO (Ranged R) ι).v.x = inf false) :
    Rep (Flt.lit 1 / (Flt.exp x - Flt.lit 1) : RvO (Ranged R) ι).v.x 0 := by
  have h1 : Rep (Flt.lit 1 : Ranged R).x 1 := (is_lit (Or.inr ⟨by rw [abs_one]; exact R.tiny_le, by rw [abs_one]; exact R.max_ge⟩)).1
  have hu : (Flt.exp x - Flt.lit 1 : RvO (Ranged R) ι).v.x = inf false := by
    show R.fit ((Flt.exp x : RvO (Ranged R) ι).v.x - (Flt.lit 1 : Ranged R).x) = _
    rw [hx, h1.inf_sub]; rfl
  show Rep (R.fit ((Flt.lit 1 : Ranged R).x / (Flt.exp x - Flt.lit 1 : RvO (Ranged R) ι).v.x)) 0
  rw [hu]
  exact rep_fit (h1.div_inf false) (Or.inl rfl)

/-- a nan term makes the sum nan -/
theorem sum_nan {n : ℕ} (y : Fin n → Ranged R) (h : ∃ k, y k = nanR R) : (Flt.sum y : Ranged R) = nanR R := by
  have key : ∀ (l : List (Ranged R)) (s : Ranged R), (s = nanR R ∨ nanR R ∈ l) →
      l.foldl (fun s a => (⟨R.fit (s.x + a.x)⟩ : Ranged R)) s = nanR R := by
    intro l
    induction l with
    | nil => intro s h; simpa using h
    | cons c l ih =>
      intro s h
      refine ih _ ?_
      rcases h with h | h
      · left
        rw [h]
        exact nan_addR c
      · rcases List.mem_cons.1 h with h | h
        · left
          rw [← h]
          exact add_nanR s
        · exact Or.inr h
  obtain ⟨k, hk⟩ := h
  exact key _ _ (Or.inr (by rw [List.mem_ofFn]; exact ⟨k, hk⟩))

/-! ### Numbers -/

theorem btw_h : Tens (-34) (-33) H_PLANCK := by unfold Tens H_PLANCK; norm_num
theorem btw_k : Tens (-23) (-22) K_BOLTZ := by unfold Tens K_BOLTZ; norm_num
theorem btw_c : Tens 8 9 C_SPEED := by unfold Tens C_SPEED; norm_num
theorem btw_hc : Tens (-25) (-24) (H_PLANCK * C_SPEED) := by unfold Tens H_PLANCK C_SPEED; norm_num
theorem btw_w : Tens 26 27 WATTS_PER_LSUN := by unfold Tens WATTS_PER_LSUN; norm_num

theorem log_ten_le : Real.log 10 ≤ 2.4 := by
  have h2 := Real.log_two_lt_d9
  have h : Real.log 10 = Real.log 8 + Real.log 1.25 := by rw [← Real.log_mul (by norm_num) (by norm_num)]; norm_num
  have h8 : Real.log 8 = 3 * Real.log 2 := by rw [show (8:ℝ) = 2 ^ 3 by norm_num, Real.log_pow]; norm_num
  have h1 : Real.log 1.25 ≤ 1.25 - 1 := Real.log_le_sub_one_of_pos (by norm_num)
  rw [h, h8]; norm_num at h1 h2 ⊢; linarith

theorem abs_log_le {m n : ℤ} {y L : ℝ} (h : Tens m n y) (h1 : -L ≤ 2.4 * m) (h2 : 2.4 * n ≤ L) (hm : m ≤ 0) (hn : 0 ≤ n) : |Real.log y| ≤ L := by
  have e : ∀ k : ℤ, Real.log ((10:ℝ) ^ k) = k * Real.log 10 := fun k => Real.log_zpow 10 k
  have l0 : 0 ≤ Real.log 10 := Real.log_nonneg (by norm_num)
  have hm' : (m:ℝ) ≤ 0 := by exact_mod_cast hm
  have hn' : (0:ℝ) ≤ n := by exact_mod_cast hn
  have a1 := Real.log_le_log (by positivity) h.1
  have a2 := Real.log_le_log h.pos h.2
  rw [e] at a1 a2
  have b1 : (m:ℝ) * 2.4 ≤ m * Real.log 10 := mul_le_mul_of_nonpos_left log_ten_le hm'
  have b2 : (n:ℝ) * Real.log 10 ≤ n * 2.4 := mul_le_mul_of_nonneg_left log_ten_le hn'
  rw [abs_le]
  constructor <;> linarith

theorem lgh_le : |LGH| ≤ 82 := abs_log_le (btw_h.mono le_rfl (by norm_num : (-33:ℤ) ≤ 0)) (by norm_num) (by norm_num) (by norm_num) (by norm_num)
theorem lgc_le : |LGC| ≤ 22 := abs_log_le (btw_c.mono (by norm_num : (0:ℤ) ≤ 8) le_rfl) (by norm_num) (by norm_num) (by norm_num) (by norm_num)
theorem lg2_le : |LG2| ≤ 3 := abs_log_le (m := 0) (n := 1) (by unfold Tens; norm_num) (by norm_num) (by norm_num) (by norm_num) (by norm_num)

theorem lgf_le : |LG2 + LGH - 2 * LGC| ≤ 129 := by
  have h1 := abs_le.1 lgh_le
  have h2 := abs_le.1 lgc_le
  have h3 := abs_le.1 lg2_le
  rw [abs_le]; constructor <;> linarith [h1.1, h1.2, h2.1, h2.2, h3.1, h3.2]
theorem lgw_le : |LG2 + LGH + 2 * LGC| ≤ 129 := by
  have h1 := abs_le.1 lgh_le
  have h2 := abs_le.1 lgc_le
  have h3 := abs_le.1 lg2_le
  rw [abs_le]; constructor <;> linarith [h1.1, h1.2, h2.1, h2.2, h3.1, h3.2]

end ranged

section float64
variable {ι : Type} {i : ι} {a b : RvO (Ranged float64) ι} {ν lam T : ℝ}

theorem le_max64 {n : ℤ} {y : ℝ} (h : y ≤ 10 ^ n) (hn : n ≤ 306) : y ≤ float64.max :=
  h.trans ((zpow_le_zpow_right₀ (by norm_num) hn).trans float64_max_ge)

theorem exp_le64 {L : ℝ} (h : L ≤ 709.782) : Real.exp L ≤ float64.max := (Real.exp_le_exp.2 h).trans float64_exp_le

/-- the factor `2 h ν³ / c²` is a finite number -/
theorem freq_factor (ha : Rep a.v.x ν) (h0 : Tens (-12) 30 ν) : Bd (Real.exp 345) (Flt.exp (Gen.jax_bb_freq_density_exparg a.v)) := by
  have hl : Bd 72 (Flt.log a.v) := Bd.log ha h0.pos (abs_log_le h0 (by norm_num) (by norm_num) (by norm_num) (by norm_num)) (le_max64 (n := 2) (by norm_num) (by norm_num))
  have h3 : Bd (3 * 72) (Flt.lit 3 * Flt.log a.v : Ranged float64) :=
    (bd_lit64 (y := 3) (A := 3) (by norm_num) (by norm_num)).mul hl (le_max64 (n := 3) (by norm_num) (by norm_num))
  have hs := (bd_lit64 lgf_le (by norm_num)).add h3 (le_max64 (n := 3) (by norm_num) (by norm_num))
  have e : (129:ℝ) + 3 * 72 = 345 := by norm_num
  rw [e] at hs
  exact hs.exp' (exp_le64 (by norm_num))

/-- the factor `2 h c² / λ⁵` is a finite number -/
theorem wave_factor {w : Ranged float64} (ha : Rep w.x lam) (h0 : Tens (-20) 20 lam) :
    Bd (Real.exp 369) (Flt.exp (Flt.lit (LG2 + LGH + 2 * LGC) - Flt.lit 5 * Flt.log w)) := by
  have hl : Bd 48 (Flt.log w) := Bd.log ha h0.pos (abs_log_le h0 (by norm_num) (by norm_num) (by norm_num) (by norm_num)) (le_max64 (n := 2) (by norm_num) (by norm_num))
  have h3 : Bd (5 * 48) (Flt.lit 5 * Flt.log w : Ranged float64) :=
    (bd_lit64 (y := 5) (A := 5) (by norm_num) (by norm_num)).mul hl (le_max64 (n := 3) (by norm_num) (by norm_num))
  have hs := (bd_lit64 lgw_le (by norm_num)).sub h3 (le_max64 (n := 3) (by norm_num) (by norm_num))
  have e : (129:ℝ) + 5 * 48 = 369 := by norm_num
  rw [e] at hs
  exact hs.exp' (exp_le64 (by norm_num))

/-- C125: in double precision, once `h ν / (k T)` reaches 709.783 the spectrum itself is a clean zero, but its gradient with respect to
everything that the frequency or the temperature depends on is nan. -/
theorem C125_freq_overflow (ha : a.v.x = fin ν) (hb : b.v.x = fin T) (hν : 1 ≤ ν ∧ ν ≤ 1e30) (hT : 1e-6 ≤ T ∧ T ≤ 1e12)
    (hx : 709.783 ≤ H_PLANCK * ν / (K_BOLTZ * T)) :
    Rep (Gen.blackbody_freq_density a b).v.x 0 ∧
    ∀ ct i, a.back (nanR _) i = nanR _ ∨ b.back (nanR _) i = nanR _ → (Gen.blackbody_freq_density a b).back ct i = nanR _ := by
  have tν : Tens (-12) 30 ν := ⟨by norm_num; linarith, by norm_num at hν ⊢; linarith⟩
  have tT : Tens (-6) 12 T := ⟨by norm_num at hT ⊢; linarith, by norm_num at hT ⊢; linarith⟩
  have ho : (Flt.exp (freqArg a b) : RvO (Ranged float64) ι).v.x = inf false :=
    exp_overflow (freqArg_v ha hb tT.pos (btw_h.in64 (by norm_num) (by norm_num)) (btw_k.in64 (by norm_num) (by norm_num))
      ((btw_h.mul tν).in64 (by norm_num) (by norm_num)) ((btw_k.mul tT).in64 (by norm_num) (by norm_num)))
      (le_trans (by norm_num) hx) (float64_exp_gt hx)
  refine ⟨?_, fun ct i hn => freq_nan ho hn ct⟩
  have hE : Bd (Real.exp 345) (Flt.exp (Gen.jax_bb_freq_density_exparg a : RvO (Ranged float64) ι)).v := freq_factor (by rw [ha]; exact Rep.fin ν) tν
  exact zero_div_is (zero_mul_bd (denom_zero ho) hE) (is_lit (Or.inr (btw_w.in64 (by norm_num) (by norm_num)))) btw_w.pos.ne'

theorem wave_m (ha : a.v.x = fin lam) (h0 : Tens (-6) 18 lam) : (a / Flt.lit 1e10 : RvO (Ranged float64) ι).v.x = fin (lam / 1e10) := by
  have t10 : Tens 10 10 1e10 := by unfold Tens; norm_num
  show float64.fit (a.v.x / float64.fit (fin 1e10)) = _
  have := h0.pos
  rw [float64.fit_in (t10.in64 (by norm_num) (by norm_num)), div_fit ha rfl (by norm_num) (by positivity),
    float64.fit_in ((h0.div t10).in64 (by norm_num) (by norm_num))]

/-- C125: the same for the wavelength density, once `h c / (k T λ)` reaches 709.783. -/
theorem C125_wave_overflow (ha : a.v.x = fin lam) (hb : b.v.x = fin T) (hl : 1e-6 ≤ lam ∧ lam ≤ 1e18) (hT : 1e-6 ≤ T ∧ T ≤ 1e12)
    (hx : 709.783 ≤ H_PLANCK * C_SPEED / (K_BOLTZ * T) / (lam / 1e10)) :
    Rep (Gen.blackbody_wave_density a b).v.x 0 ∧
    ∀ ct i, a.back (nanR _) i = nanR _ ∨ b.back (nanR _) i = nanR _ → (Gen.blackbody_wave_density a b).back ct i = nanR _ := by
  have tl : Tens (-6) 18 lam := ⟨by norm_num at hl ⊢; linarith, by norm_num at hl ⊢; linarith⟩
  have tT : Tens (-6) 12 T := ⟨by norm_num at hT ⊢; linarith, by norm_num at hT ⊢; linarith⟩
  have t10 : Tens 10 10 1e10 := by unfold Tens; norm_num
  have tm := tl.div t10
  have hm := wave_m ha tl
  have ho : (Flt.exp (waveArg (a / Flt.lit 1e10) b) : RvO (Ranged float64) ι).v.x = inf false :=
    exp_overflow (waveArg_v hm hb tm.pos tT.pos (btw_hc.in64 (by norm_num) (by norm_num)) (btw_k.in64 (by norm_num) (by norm_num))
      ((btw_k.mul tT).in64 (by norm_num) (by norm_num)) ((btw_hc.div (btw_k.mul tT)).in64 (by norm_num) (by norm_num)))
      (le_trans (by norm_num) hx) (float64_exp_gt hx)
  refine ⟨?_, fun ct i hn => wave_nan rfl ho hn ct⟩
  have hE : Bd (Real.exp 369) (Flt.exp (Flt.lit (LG2 + LGH + 2 * LGC) - Flt.lit 5 * Flt.log (a / Flt.lit 1e10)) : RvO (Ranged float64) ι).v :=
    wave_factor (by rw [hm]; exact Rep.fin _) (tm.mono (by norm_num) (by norm_num))
  exact zero_mul_bd (zero_div_is (bd_mul_zero hE (denom_zero ho)) (is_lit (Or.inr (btw_w.in64 (by norm_num) (by norm_num)))) btw_w.pos.ne')
    (bd_lit64 (y := 1e-10) (A := 1) (by norm_num) (by norm_num))

/-- C125: a spectrum (or any sum over a wavelength grid) with one such wavelength has a nan gradient as a whole. -/
theorem C125_sum_overflow {n : ℕ} {w : Fin n → RvO (Ranged float64) ι} {l : Fin n → ℝ} {k : Fin n} (ha : (w k).v.x = fin (l k))
    (hb : b.v.x = fin T) (hl : 1e-6 ≤ l k ∧ l k ≤ 1e18) (hT : 1e-6 ≤ T ∧ T ≤ 1e12)
    (hx : 709.783 ≤ H_PLANCK * C_SPEED / (K_BOLTZ * T) / (l k / 1e10)) (hn : b.back (nanR _) i = nanR _) :
    RvO.grad (Flt.sum fun j => Gen.blackbody_wave_density (w j) b) i = nanR _ :=
  sum_nan _ ⟨k, (C125_wave_overflow ha hb hl hT hx).2 _ i (Or.inr hn)⟩

/-! #### Below the overflow -/

/-- back-propagation through `1 / (exp x - 1)`: the cotangent that reaches `x` -/
theorem denom_back (x : RvO (Ranged float64) ι) (ct : Ranged float64) :
    (Flt.lit 1 / (Flt.exp x - Flt.lit 1) : RvO (Ranged float64) ι).back ct i =
      Flt.lit 0 + (x.back (-ct * Flt.lit 1 * (Flt.lit 1 / ((Flt.exp x.v - Flt.lit 1) * (Flt.exp x.v - Flt.lit 1))) * Flt.exp x.v) i + Flt.lit 0) := rfl

theorem is_one : Is (Flt.lit 1 : Ranged float64) 1 := is_lit (Or.inr ((show Tens 0 0 1 by unfold Tens; norm_num).in64 (by norm_num) (by norm_num)))

/-- the exponential and `exp x - 1` are in the range -/
theorem denom_is {x : RvO (Ranged float64) ι} {y : ℝ} (hx : Is x.v y) (h0 : 1e-20 ≤ y) (h1 : y ≤ 709.782) :
    Is (Flt.exp x.v) (Real.exp y) ∧ Is (Flt.exp x.v - Flt.lit 1 : Ranged float64) (Real.exp y - 1) := by
  have hy : 0 < y := lt_of_lt_of_le (by norm_num) h0
  have he := Real.add_one_lt_exp hy.ne'
  have hm := exp_le64 h1
  have i1 : float64.In (Real.exp y) := by
    unfold Range.In; rw [abs_of_pos (Real.exp_pos y)]
    exact ⟨float64.tiny_le.trans (by linarith), hm⟩
  have i2 : float64.In (Real.exp y - 1) := by
    unfold Range.In; rw [abs_of_pos (by linarith)]
    refine ⟨?_, by linarith⟩
    have : float64.tiny ≤ 1e-20 := float64_tiny_le.trans ((zpow_le_zpow_right₀ (by norm_num) (by norm_num : (-306:ℤ) ≤ -20)).trans (by norm_num))
    linarith
  exact ⟨hx.exp i1, (hx.exp i1).sub is_one (Or.inr i2)⟩

/-- `exp y / (exp y - 1)² ≤ 1 / y²` -/
theorem bose_le {y : ℝ} (hy : 0 < y) : 1 / ((Real.exp y - 1) * (Real.exp y - 1)) * Real.exp y ≤ 1 / (y * y) := by
  have hs : y / 2 ≤ Real.sinh (y / 2) := Real.self_le_sinh_iff.2 (by linarith)
  have he : Real.exp y = Real.exp (y / 2) * Real.exp (y / 2) := by rw [← Real.exp_add]; ring_nf
  have h2 : Real.exp (y / 2) * Real.exp (-(y / 2)) = 1 := by rw [← Real.exp_add]; simp
  have e : Real.exp y - 1 = Real.exp (y / 2) * (2 * Real.sinh (y / 2)) := by
    rw [Real.sinh_eq, he]
    linear_combination h2
  have hp := Real.exp_pos (y / 2)
  have hs0 : 0 < Real.sinh (y / 2) := by linarith
  rw [e, he]
  have : 1 / (Real.exp (y / 2) * (2 * Real.sinh (y / 2)) * (Real.exp (y / 2) * (2 * Real.sinh (y / 2)))) * (Real.exp (y / 2) * Real.exp (y / 2)) =
      1 / ((2 * Real.sinh (y / 2)) * (2 * Real.sinh (y / 2))) := by field_simp
  rw [this]
  exact one_div_le_one_div_of_le (by positivity) (mul_self_le_mul_self hy.le (by linarith))

theorem denom_bd {x : RvO (Ranged float64) ι} {y A : ℝ} {ct : Ranged float64} (hx : Is x.v y) (h0 : 1e-20 ≤ y) (h1 : y ≤ 709.782)
    (hc : Bd A ct) (hA1 : A ≤ 10 ^ (306:ℤ)) (hA : A * (1 / (y * y)) ≤ 10 ^ (306:ℤ)) :
    Bd (A * (1 / (y * y))) (-ct * Flt.lit 1 * (Flt.lit 1 / ((Flt.exp x.v - Flt.lit 1) * (Flt.exp x.v - Flt.lit 1))) * Flt.exp x.v) := by
  have hy : 0 < y := lt_of_lt_of_le (by norm_num) h0
  obtain ⟨he, hu⟩ := denom_is hx h0 h1
  have hA0 := hc.nonneg
  have hgt := Real.add_one_lt_exp hy.ne'
  have huy : y ≤ Real.exp y - 1 := by linarith
  have hu0 : 0 < Real.exp y - 1 := by linarith
  have hyy : y * y ≤ (Real.exp y - 1) * (Real.exp y - 1) := mul_self_le_mul_self hy.le huy
  have hinv : 1 / ((Real.exp y - 1) * (Real.exp y - 1)) ≤ 1 / (y * y) := one_div_le_one_div_of_le (by positivity) hyy
  have hsq : (10:ℝ) ^ (-40:ℤ) ≤ y * y := by
    calc (10:ℝ) ^ (-40:ℤ) = 1e-20 * 1e-20 := by norm_num
      _ ≤ y * y := mul_self_le_mul_self (by norm_num) h0
  have hi40 : 1 / (y * y) ≤ (10:ℝ) ^ (40:ℤ) := by
    rw [div_le_iff₀ (by positivity)]
    calc (1:ℝ) = 10 ^ (40:ℤ) * 10 ^ (-40:ℤ) := by norm_num
      _ ≤ 10 ^ (40:ℤ) * (y * y) := mul_le_mul_of_nonneg_left hsq (by positivity)
  have b1 : Bd A (-ct * Flt.lit 1) := by
    have := (Bd.mul hc.neg (is_one.bd) (B := |1|) (by
      rw [abs_one, mul_one]
      exact le_max64 hA1 le_rfl))
    rwa [abs_one, mul_one] at this
  have b2 := bd_inv_sq hu hu0.ne' ((float64_tiny_le.trans ((zpow_le_zpow_right₀ (by norm_num) (by norm_num : (-306:ℤ) ≤ -40)).trans hsq)).trans hyy)
    (le_max64 (hinv.trans hi40) (by norm_num))
  have m1 : A * (1 / ((Real.exp y - 1) * (Real.exp y - 1))) ≤ A * (1 / (y * y)) := mul_le_mul_of_nonneg_left hinv hA0
  have b3 := b1.mul b2 (le_max64 (m1.trans hA) (by norm_num))
  have m2 : A * (1 / ((Real.exp y - 1) * (Real.exp y - 1))) * Real.exp y ≤ A * (1 / (y * y)) := by
    rw [mul_assoc]; exact mul_le_mul_of_nonneg_left (bose_le hy) hA0
  have b4 := b3.mul (he.bd.mono (le_of_eq (abs_of_pos (Real.exp_pos y)))) (le_max64 (m2.trans hA) (by norm_num))
  exact b4.mono m2

theorem exp_le_ten {L : ℝ} {n : ℕ} (h : L ≤ 2 * n) : Real.exp L ≤ 10 ^ (n:ℤ) := by
  have h1 : Real.exp 2 ≤ 10 := by
    have := Real.exp_one_lt_d9
    have e : Real.exp 2 = Real.exp 1 * Real.exp 1 := by rw [← Real.exp_add]; norm_num
    rw [e]; nlinarith [Real.exp_pos 1]
  calc Real.exp L ≤ Real.exp (n * 2) := Real.exp_le_exp.2 (by linarith)
    _ = Real.exp 2 ^ n := by rw [Real.exp_nat_mul]
    _ ≤ 10 ^ n := pow_le_pow_left₀ (Real.exp_pos _).le h1 n
    _ = 10 ^ (n:ℤ) := (zpow_natCast _ _).symm

theorem mul_ten {y z : ℝ} {m n : ℤ} (h0 : 0 ≤ y) (h1 : y ≤ 10 ^ m) (h2 : z ≤ 10 ^ n) (h : 0 ≤ z) : y * z ≤ 10 ^ (m + n) := by
  rw [zpow_add₀ (by norm_num)]; exact mul_le_mul h1 h2 h (by positivity)

theorem bd_mul_ten {u w : Ranged float64} {m n : ℤ} (h1 : Bd (10 ^ m) u) (h2 : Bd (10 ^ n) w) (h : m + n ≤ 306) : Bd (10 ^ (m + n)) (u * w) := by
  have := h1.mul h2 (by rw [← zpow_add₀ (by norm_num)]; exact le_max64 le_rfl h)
  rwa [← zpow_add₀ (by norm_num)] at this

theorem is_zero : Is (Flt.lit 0 : Ranged float64) 0 := is_lit (Or.inl rfl)

theorem zero_add_bd {u w : Ranged float64} {n : ℤ} (h1 : Is u 0) (h2 : Bd (10 ^ n) w) (hn : n ≤ 306) : Bd (10 ^ n) (u + w) := by
  have h := h1.bd
  rw [abs_zero] at h
  have := h.add h2 (by rw [zero_add]; exact le_max64 le_rfl hn)
  rwa [zero_add] at this
theorem bd_add_zero {u w : Ranged float64} {n : ℤ} (h1 : Is u 0) (h2 : Bd (10 ^ n) w) (hn : n ≤ 306) : Bd (10 ^ n) (w + u) := by
  have h := h1.bd
  rw [abs_zero] at h
  have := h2.add h (by rw [add_zero]; exact le_max64 le_rfl hn)
  rwa [add_zero] at this

theorem Tens.bd {m n : ℤ} {y : ℝ} {u : Ranged float64} (h : Tens m n y) (hu : Is u y) : Bd (10 ^ n) u := by
  have := hu.bd
  rw [abs_of_pos h.pos] at this
  exact this.mono h.2

theorem var_bd [DecidableEq ι] {n : ℤ} {k : ι} {c : Ranged float64} (x : Ranged float64) (h : Bd (10 ^ n) c) : Bd (10 ^ n) ((RvO.var k x).back c i) := by
  show Bd _ (if i = k then c else Flt.lit 0)
  split_ifs
  · exact h
  · have := is_zero.bd; rw [abs_zero] at this; exact this.mono (by positivity)

theorem zz : Is (Flt.lit 0 + Flt.lit 0 : Ranged float64) 0 := is_zero.zero_add is_zero

/-- `h ν / (k T)` is computed exactly -/
theorem freqArg_is (ha : a.v.x = fin ν) (hb : b.v.x = fin T) (tν : Tens 3 25 ν) (tT : Tens (-3) 9 T) :
    Is (Flt.lit H_PLANCK * a.v : Ranged float64) (H_PLANCK * ν) ∧ Is (Flt.lit K_BOLTZ * b.v : Ranged float64) (K_BOLTZ * T) ∧
    Is (freqArg a b).v (H_PLANCK * ν / (K_BOLTZ * T)) := by
  have iν : Is a.v ν := ⟨by rw [ha]; exact Rep.fin ν, Or.inr (tν.in64 (by norm_num) (by norm_num))⟩
  have iT : Is b.v T := ⟨by rw [hb]; exact Rep.fin T, Or.inr (tT.in64 (by norm_num) (by norm_num))⟩
  have h1 := (is_lit (Or.inr (btw_h.in64 (by norm_num) (by norm_num)))).mul iν (Or.inr ((btw_h.mul tν).in64 (by norm_num) (by norm_num)))
  have h2 := (is_lit (Or.inr (btw_k.in64 (by norm_num) (by norm_num)))).mul iT (Or.inr ((btw_k.mul tT).in64 (by norm_num) (by norm_num)))
  exact ⟨h1, h2, h1.div h2 (btw_k.mul tT).pos.ne' (Or.inr (((btw_h.mul tν).div (btw_k.mul tT)).in64 (by norm_num) (by norm_num)))⟩

theorem inv_sq_le {y : ℝ} (h0 : 1e-20 ≤ y) : 1 / (y * y) ≤ (10:ℝ) ^ (40:ℤ) := by
  have hy : 0 < y := lt_of_lt_of_le (by norm_num) h0
  rw [div_le_iff₀ (by positivity)]
  calc (1:ℝ) = 10 ^ (40:ℤ) * (1e-20 * 1e-20) := by norm_num
    _ ≤ 10 ^ (40:ℤ) * (y * y) := mul_le_mul_of_nonneg_left (mul_self_le_mul_self (by norm_num) h0) (by positivity)

theorem one_div_sq_bd {u : Ranged float64} {m n : ℤ} {z : ℝ} (hu : Is u z) (h : Tens m n z) (h1 : -100 ≤ m) (h2 : n ≤ 100) :
    Bd (10 ^ (-(m + m))) (Flt.lit 1 / (u * u)) := by
  have hz := h.pos
  have hs : (10:ℝ) ^ (m + m) ≤ z * z := (h.mul h).1
  have hi : 1 / (z * z) ≤ 10 ^ (-(m + m)) := by
    rw [zpow_neg, ← one_div]; exact one_div_le_one_div_of_le (by positivity) hs
  exact (bd_inv_sq hu hz.ne' (float64_tiny_le.trans ((zpow_le_zpow_right₀ (by norm_num) (by omega)).trans hs)) (le_max64 hi (by omega))).mono hi

/-- C125: below the overflow (up to 709.782) the gradient with respect to the temperature is a finite number. -/
theorem C125_freq_finite [DecidableEq ι] {k : ι} (hν : 1e3 ≤ ν ∧ ν ≤ 1e25) (hT : 1e-3 ≤ T ∧ T ≤ 1e9)
    (hx : H_PLANCK * ν / (K_BOLTZ * T) ≤ 709.782) (i : ι) :
    IsFinite (RvO.grad (Gen.blackbody_freq_density (RvO.const ⟨fin ν⟩) (RvO.var k (⟨fin T⟩ : Ranged float64))) i).x := by
  have tν : Tens 3 25 ν := ⟨by norm_num at hν ⊢; linarith, by norm_num at hν ⊢; linarith⟩
  have tT : Tens (-3) 9 T := ⟨by norm_num at hT ⊢; linarith, by norm_num at hT ⊢; linarith⟩
  obtain ⟨a, ha⟩ : ∃ a : RvO (Ranged float64) ι, a = RvO.const ⟨fin ν⟩ := ⟨_, rfl⟩
  obtain ⟨b, hb⟩ : ∃ b : RvO (Ranged float64) ι, b = RvO.var k ⟨fin T⟩ := ⟨_, rfl⟩
  have hab : ∀ c i, a.back c i = Flt.lit 0 := fun c i => by rw [ha]; rfl
  rw [← ha, ← hb]
  obtain ⟨h1, h2, h3⟩ := freqArg_is (a := a) (b := b) (ν := ν) (T := T) (by rw [ha]; rfl) (by rw [hb]; rfl) tν tT
  have tx := (btw_h.mul tν).div (btw_k.mul tT)
  have hE : Bd (10 ^ (173:ℤ)) (Flt.exp (Gen.jax_bb_freq_density_exparg a.v)) :=
    (freq_factor (ν := ν) (by rw [ha]; exact Rep.fin ν) (tν.mono (by norm_num) (by norm_num))).mono (exp_le_ten (n := 173) (by norm_num))
  have hW : Bd (10 ^ (0:ℤ)) (Flt.lit 1 / Flt.lit WATTS_PER_LSUN : Ranged float64) := by
    have := Bd.div is_one.bd (is_lit (Or.inr (btw_w.in64 (by norm_num) (by norm_num)))) btw_w.pos.ne' (R := float64)
      (le_max64 (n := 1) (by norm_num [WATTS_PER_LSUN]) (by norm_num))
    exact this.mono (by norm_num [WATTS_PER_LSUN])
  have hc := bd_mul_ten hW hE (by norm_num)
  have hx0 : 1e-20 ≤ H_PLANCK * ν / (K_BOLTZ * T) := le_trans (by norm_num) tx.1
  have hxx : 1 / (H_PLANCK * ν / (K_BOLTZ * T) * (H_PLANCK * ν / (K_BOLTZ * T))) ≤ 10 ^ (40:ℤ) := inv_sq_le hx0
  have hm := mul_ten (y := 10 ^ (0 + 173 : ℤ)) (by positivity) le_rfl hxx (by have := tx.pos; positivity)
  have hd := (denom_bd h3 hx0 hx hc (zpow_le_zpow_right₀ (by norm_num) (by norm_num)) (hm.trans (zpow_le_zpow_right₀ (by norm_num) (by norm_num)))).mono hm
  obtain ⟨c, hcd⟩ : ∃ c, c = -((Flt.lit 1 / Flt.lit WATTS_PER_LSUN : Ranged float64) * Flt.exp (Gen.jax_bb_freq_density_exparg a.v)) * Flt.lit 1 *
    (Flt.lit 1 / ((Flt.exp (freqArg a b).v - Flt.lit 1) * (Flt.exp (freqArg a b).v - Flt.lit 1))) * Flt.exp (freqArg a b).v := ⟨_, rfl⟩
  rw [← hcd] at hd
  have h4 := bd_mul_ten (bd_mul_ten hd.neg (Tens.bd (btw_h.mul tν) h1) (by norm_num)) (one_div_sq_bd h2 (btw_k.mul tT) (by norm_num) (by norm_num)) (by norm_num)
  have h5 := bd_mul_ten h4 (Tens.bd btw_k (is_lit (Or.inr (btw_k.in64 (by norm_num) (by norm_num))))) (by norm_num)
  have h6 := var_bd (i := i) (k := k) ⟨fin T⟩ h5
  refine Bd.finite (A := 10 ^ (0 + 173 + 40 + (-33 + 25) + -(-23 + -3 + (-23 + -3)) + -22 : ℤ)) ?_
  have hg : RvO.grad (Gen.blackbody_freq_density a b) i =
      ((Flt.lit 0 + (((Flt.lit 0 + Flt.lit 0) + (Flt.lit 0 + b.back (-c * (Flt.lit H_PLANCK * a.v) *
        (Flt.lit 1 / ((Flt.lit K_BOLTZ * b.v) * (Flt.lit K_BOLTZ * b.v))) * Flt.lit K_BOLTZ) i)) + Flt.lit 0)) +
        (Flt.lit 0 + (Flt.lit 0 + Flt.lit 0))) + Flt.lit 0 := by
    rw [hcd, ha]; rfl
  rw [hg]
  rw [← hb] at h6
  have hn : (0 + 173 + 40 + (-33 + 25) + -(-23 + -3 + (-23 + -3)) + -22 : ℤ) ≤ 306 := by norm_num
  exact bd_add_zero is_zero (bd_add_zero (is_zero.zero_add zz) (zero_add_bd is_zero (bd_add_zero is_zero (zero_add_bd zz
    (zero_add_bd is_zero h6 hn) hn) hn) hn) hn) hn

/-- `h c / (k T λ)` is computed exactly -/
theorem waveArg_is (ha : a.v.x = fin lam) (hb : b.v.x = fin T) (tl : Tens (-10) 2 lam) (tT : Tens (-3) 9 T) :
    Is (Flt.lit K_BOLTZ * b.v : Ranged float64) (K_BOLTZ * T) ∧ Is (waveArg a b).v (H_PLANCK * C_SPEED / (K_BOLTZ * T) / lam) := by
  have iν : Is a.v lam := ⟨by rw [ha]; exact Rep.fin lam, Or.inr (tl.in64 (by norm_num) (by norm_num))⟩
  have iT : Is b.v T := ⟨by rw [hb]; exact Rep.fin T, Or.inr (tT.in64 (by norm_num) (by norm_num))⟩
  have h1 := is_lit (R := float64) (Or.inr (btw_hc.in64 (by norm_num) (by norm_num)))
  have h2 := (is_lit (Or.inr (btw_k.in64 (by norm_num) (by norm_num)))).mul iT (Or.inr ((btw_k.mul tT).in64 (by norm_num) (by norm_num)))
  have h3 := h1.div h2 (btw_k.mul tT).pos.ne' (Or.inr ((btw_hc.div (btw_k.mul tT)).in64 (by norm_num) (by norm_num)))
  exact ⟨h2, h3.div iν tl.pos.ne' (Or.inr (((btw_hc.div (btw_k.mul tT)).div tl).in64 (by norm_num) (by norm_num)))⟩

theorem bd_div_ten {u w : Ranged float64} {m n p : ℤ} {z : ℝ} (h1 : Bd (10 ^ m) u) (h2 : Is w z) (t : Tens n p z) (h : m - n ≤ 306) :
    Bd (10 ^ (m - n)) (u / w) := by
  have hz := t.pos
  have hm : (10:ℝ) ^ m / |z| ≤ 10 ^ (m - n) := by
    rw [abs_of_pos hz, zpow_sub₀ (by norm_num)]
    exact div_le_div_of_nonneg_left (by positivity) (by positivity) t.1
  exact (h1.div h2 hz.ne' (le_max64 hm h)).mono hm

/-- C125: the same for the wavelength density. -/
theorem C125_wave_finite [DecidableEq ι] {k : ι} (hl : 1 ≤ lam ∧ lam ≤ 1e12) (hT : 1e-3 ≤ T ∧ T ≤ 1e9)
    (hx : H_PLANCK * C_SPEED / (K_BOLTZ * T) / (lam / 1e10) ≤ 709.782) (i : ι) :
    IsFinite (RvO.grad (Gen.blackbody_wave_density (RvO.const ⟨fin lam⟩) (RvO.var k (⟨fin T⟩ : Ranged float64))) i).x := by
  have tl : Tens 0 12 lam := ⟨by norm_num at hl ⊢; linarith, by norm_num at hl ⊢; linarith⟩
  have tT : Tens (-3) 9 T := ⟨by norm_num at hT ⊢; linarith, by norm_num at hT ⊢; linarith⟩
  have t10 : Tens 10 10 1e10 := by unfold Tens; norm_num
  have tm := tl.div t10
  obtain ⟨a, ha⟩ : ∃ a : RvO (Ranged float64) ι, a = RvO.const ⟨fin lam⟩ := ⟨_, rfl⟩
  obtain ⟨b, hb⟩ : ∃ b : RvO (Ranged float64) ι, b = RvO.var k ⟨fin T⟩ := ⟨_, rfl⟩
  rw [← ha, ← hb]
  obtain ⟨a', ha'⟩ : ∃ a', a' = a / Flt.lit 1e10 := ⟨_, rfl⟩
  have hv : a'.v.x = fin (lam / 1e10) := by rw [ha']; exact wave_m (by rw [ha]; rfl) (tl.mono (by norm_num) (by norm_num))
  have iv : Is a'.v (lam / 1e10) := ⟨by rw [hv]; exact Rep.fin _, Or.inr (tm.in64 (by norm_num) (by norm_num))⟩
  obtain ⟨h2, h3⟩ := waveArg_is (a := a') (b := b) (T := T) hv (by rw [hb]; rfl) tm tT
  have tx := (btw_hc.div (btw_k.mul tT)).div tm
  have hE := (wave_factor (w := a'.v) (by rw [hv]; exact Rep.fin _) (tm.mono (by norm_num) (by norm_num))).mono (exp_le_ten (n := 185) (by norm_num))
  have hW : Bd (10 ^ (0:ℤ)) (Flt.lit 1 * Flt.lit 1e-10 / Flt.lit WATTS_PER_LSUN : Ranged float64) := by
    have b1 : Bd (10 ^ (0:ℤ)) (Flt.lit 1 : Ranged float64) := bd_lit64 (by norm_num) (by norm_num)
    have b2 : Bd (10 ^ (0:ℤ)) (Flt.lit 1e-10 : Ranged float64) := bd_lit64 (by norm_num) (by norm_num)
    exact (bd_div_ten (bd_mul_ten b1 b2 (by norm_num)) (is_lit (Or.inr (btw_w.in64 (by norm_num) (by norm_num)))) btw_w (by norm_num)).mono
      (zpow_le_zpow_right₀ (by norm_num) (by norm_num))
  have hc := bd_mul_ten hW hE (by norm_num)
  have hx0 : 1e-20 ≤ H_PLANCK * C_SPEED / (K_BOLTZ * T) / (lam / 1e10) := le_trans (by norm_num) tx.1
  have hm := mul_ten (y := 10 ^ (0 + (185:ℕ) : ℤ)) (by positivity) le_rfl (inv_sq_le hx0) (by have := tx.pos; positivity)
  have hd := (denom_bd h3 hx0 hx hc (zpow_le_zpow_right₀ (by norm_num) (by norm_num)) (hm.trans (zpow_le_zpow_right₀ (by norm_num) (by norm_num)))).mono hm
  obtain ⟨c, hcd⟩ : ∃ c, c = -((Flt.lit 1 * Flt.lit 1e-10 / Flt.lit WATTS_PER_LSUN : Ranged float64) *
    Flt.exp (Flt.lit (LG2 + LGH + 2 * LGC) - Flt.lit 5 * Flt.log a'.v)) * Flt.lit 1 *
    (Flt.lit 1 / ((Flt.exp (waveArg a' b).v - Flt.lit 1) * (Flt.exp (waveArg a' b).v - Flt.lit 1))) * Flt.exp (waveArg a' b).v := ⟨_, rfl⟩
  rw [← hcd] at hd
  have hd' := bd_div_ten hd iv tm (by norm_num)
  have ihc := is_lit (R := float64) (Or.inr (btw_hc.in64 (by norm_num) (by norm_num)))
  have h4 := bd_mul_ten (bd_mul_ten hd'.neg (Tens.bd btw_hc ihc) (by norm_num)) (one_div_sq_bd h2 (btw_k.mul tT) (by norm_num) (by norm_num)) (by norm_num)
  have h5 := bd_mul_ten h4 (Tens.bd btw_k (is_lit (Or.inr (btw_k.in64 (by norm_num) (by norm_num))))) (by norm_num)
  have h6 := var_bd (i := i) (k := k) ⟨fin T⟩ h5
  rw [← hb] at h6
  have hg : RvO.grad (Gen.blackbody_wave_density a b) i =
      (((Flt.lit 0 + (Flt.lit 0 + (Flt.lit 0 + Flt.lit 0))) + (Flt.lit 0 + (((Flt.lit 0 + (Flt.lit 0 + b.back (-(c / a'.v) * Flt.lit (H_PLANCK * C_SPEED) *
        (Flt.lit 1 / ((Flt.lit K_BOLTZ * b.v) * (Flt.lit K_BOLTZ * b.v))) * Flt.lit K_BOLTZ) i)) + (Flt.lit 0 + Flt.lit 0)) + Flt.lit 0))) + Flt.lit 0) + Flt.lit 0 := by
    rw [hcd, ha', ha]; rfl
  rw [hg]
  have hn : (0 + ((185:ℕ):ℤ) + 40 - (0 - 10) + -24 + -(-23 + -3 + (-23 + -3)) + -22 : ℤ) ≤ 306 := by norm_num
  exact (bd_add_zero is_zero (bd_add_zero is_zero (zero_add_bd (is_zero.zero_add (is_zero.zero_add zz)) (zero_add_bd is_zero (bd_add_zero is_zero
    (bd_add_zero zz (zero_add_bd is_zero (zero_add_bd is_zero h6 hn) hn) hn) hn) hn) hn) hn) hn).finite

/-! #### Exact results -/

/-- the float is the number `y`, whose magnitude lies between two powers of ten -/
def IsT (m n : ℤ) (u : Ranged float64) (y : ℝ) : Prop := Rep u.x y ∧ Tens m n |y|

variable {m n p q : ℤ} {u w : Ranged float64} {y z : ℝ}

theorem in_abs {R : Range} {y : ℝ} (h : R.In |y|) : R.In y := by unfold Range.In at *; rwa [abs_abs] at h
theorem tens_abs (h : Tens m n y) : Tens m n |y| := by rwa [abs_of_pos h.pos]
theorem IsT.is (h : IsT m n u y) (h1 : -306 ≤ m) (h2 : n ≤ 306) : Is u y := ⟨h.1, Or.inr (in_abs (h.2.in64 h1 h2))⟩
theorem isT_lit (h : Tens m n |y|) (h1 : -306 ≤ m) (h2 : n ≤ 306) : IsT m n (Flt.lit y) y :=
  ⟨(is_lit (Or.inr (in_abs (h.in64 h1 h2)))).1, h⟩
theorem IsT.mul (h : IsT m n u y) (h' : IsT p q w z) (h1 : -306 ≤ m + p) (h2 : n + q ≤ 306) : IsT (m + p) (n + q) (u * w) (y * z) := by
  have ht : Tens (m + p) (n + q) |y * z| := by rw [abs_mul]; exact h.2.mul h'.2
  exact ⟨rep_fit (h.1.mul h'.1) (Or.inr (in_abs (ht.in64 h1 h2))), ht⟩
theorem IsT.div (h : IsT m n u y) (h' : IsT p q w z) (h1 : -306 ≤ m - q) (h2 : n - p ≤ 306) : IsT (m - q) (n - p) (u / w) (y / z) := by
  have ht : Tens (m - q) (n - p) |y / z| := by rw [abs_div]; exact h.2.div h'.2
  exact ⟨rep_fit (h.1.div h'.1 (abs_pos.1 h'.2.pos)) (Or.inr (in_abs (ht.in64 h1 h2))), ht⟩
theorem IsT.neg (h : IsT m n u y) : IsT m n (-u) (-y) := ⟨h.1.neg, by rw [abs_neg]; exact h.2⟩
theorem IsT.exp (h : IsT m n u y) (t : Tens p q (Real.exp y)) (h1 : -306 ≤ p) (h2 : q ≤ 306) : IsT p q (Flt.exp u) (Real.exp y) := by
  refine ⟨rep_fit ?_ (Or.inr (t.in64 h1 h2)), tens_abs t⟩
  show Rep (XF.exp u.x) _
  rw [h.1.exp]; exact Rep.fin _
theorem IsT.log (h : IsT m n u y) (h0 : 0 < y) (t : Tens p q |Real.log y|) (h1 : -306 ≤ p) (h2 : q ≤ 306) : IsT p q (Flt.log u) (Real.log y) := by
  refine ⟨rep_fit ?_ (Or.inr (in_abs (t.in64 h1 h2))), t⟩
  show Rep (XF.log u.x) _
  rw [h.1.log h0]; exact Rep.fin _
theorem IsT.add (h : IsT m n u y) (h' : IsT p q w z) {r s : ℤ} (t : Tens r s |y + z|) (h1 : -306 ≤ r) (h2 : s ≤ 306) : IsT r s (u + w) (y + z) :=
  ⟨rep_fit (h.1.add h'.1) (Or.inr (in_abs (t.in64 h1 h2))), t⟩
theorem IsT.sub (h : IsT m n u y) (h' : IsT p q w z) {r s : ℤ} (t : Tens r s |y - z|) (h1 : -306 ≤ r) (h2 : s ≤ 306) : IsT r s (u - w) (y - z) :=
  ⟨rep_fit (h.1.sub h'.1) (Or.inr (in_abs (t.in64 h1 h2))), t⟩
theorem isT_one : IsT 0 0 (Flt.lit 1) 1 := isT_lit (by unfold Tens; norm_num) (by norm_num) (by norm_num)

/-- `1 / (exp x - 1)` and the cotangent that reaches `x`, exactly -/
theorem denom_isT {x : Ranged float64} {ct : Ranged float64} (hx : IsT (-20) 3 x y) (h0 : 0 < y) (h1 : y ≤ 200) (hc : IsT m n ct z)
    (hm : -100 ≤ m) (hn : n ≤ 100) :
    IsT (-100) 20 (Flt.lit 1 / (Flt.exp x - Flt.lit 1)) (1 / (Real.exp y - 1)) ∧
    IsT (m + 0 + (0 - (100 + 100)) + 0) (n + 0 + (0 - (-20 + -20)) + 100)
      (-ct * Flt.lit 1 * (Flt.lit 1 / ((Flt.exp x - Flt.lit 1) * (Flt.exp x - Flt.lit 1))) * Flt.exp x)
      (-z * 1 * (1 / ((Real.exp y - 1) * (Real.exp y - 1))) * Real.exp y) := by
  have hgt := Real.add_one_lt_exp h0.ne'
  have hle : Real.exp y ≤ 10 ^ (100:ℤ) := exp_le_ten (n := 100) (by norm_num; linarith)
  have hy : (10:ℝ) ^ (-20:ℤ) ≤ y := by have := hx.2.1; rwa [abs_of_pos h0] at this
  have te : Tens 0 100 (Real.exp y) := ⟨by norm_num; linarith, hle⟩
  have tu : Tens (-20) 100 (Real.exp y - 1) := ⟨by linarith, by linarith⟩
  have he := hx.exp te (by norm_num) (by norm_num)
  have hu := he.sub isT_one (tens_abs tu) (by norm_num) (by norm_num)
  refine ⟨by simpa using isT_one.div hu (by norm_num) (by norm_num), ?_⟩
  exact ((hc.neg.mul isT_one (by omega) (by omega)).mul (isT_one.div (hu.mul hu (by norm_num) (by norm_num)) (by norm_num) (by norm_num)) (by omega) (by omega)).mul he
    (by omega) (by omega)

/-- the factor `2 h ν³ / c²`, exactly -/
theorem freq_factor_isT {x : Ranged float64} (hx : x.x = fin ν) (hν : 1e6 ≤ ν ∧ ν ≤ 1e16) :
    IsT (-40) 0 (Flt.exp (Gen.jax_bb_freq_density_exparg x)) (Real.exp (LG2 + LGH - 2 * LGC + 3 * Real.log ν)) := by
  have tν : Tens 6 16 ν := ⟨by norm_num at hν ⊢; linarith, by norm_num at hν ⊢; linarith⟩
  have h0 := tν.pos
  have E : Real.exp (LG2 + LGH - 2 * LGC + 3 * Real.log ν) = 2 * H_PLANCK / (C_SPEED * C_SPEED) * (ν * ν * ν) := by
    rw [Real.exp_add, Real.exp_sub, Real.exp_add, show 2 * LGC = LGC + LGC by ring, Real.exp_add,
      show 3 * Real.log ν = Real.log ν + Real.log ν + Real.log ν by ring, Real.exp_add, Real.exp_add, LG2, LGH, LGC, Real.exp_log (by norm_num),
      Real.exp_log btw_h.pos, Real.exp_log btw_c.pos, Real.exp_log h0]
  have t0 : Tens (-50) (-49) (2 * H_PLANCK / (C_SPEED * C_SPEED)) := by unfold Tens H_PLANCK C_SPEED; norm_num
  have tE' : Tens (-32) (-1) (Real.exp (LG2 + LGH - 2 * LGC + 3 * Real.log ν)) := by
    rw [E]; exact (t0.mul ((tν.mul tν).mul tν)).mono (by norm_num) (by norm_num)
  have hlog : |Real.log ν| ≤ 38.4 := abs_log_le (tν.mono (by norm_num : (0:ℤ) ≤ 6) le_rfl) (by norm_num) (by norm_num) (by norm_num) (by norm_num)
  have hlog1 : 1 ≤ Real.log ν := by
    rw [Real.le_log_iff_exp_le h0]
    have := Real.exp_one_lt_d9
    norm_num at this hν; linarith
  have hlog' := le_of_abs_le hlog
  have tlog : Tens 0 3 |Real.log ν| := ⟨by rw [abs_of_pos (by linarith)]; norm_num; exact hlog1, hlog.trans (by norm_num)⟩
  have hneg : LG2 + LGH - 2 * LGC + 3 * Real.log ν ≤ -1 := by
    by_contra h
    push Not at h
    have h1 := Real.exp_lt_exp.2 h
    have h2 := tE'.2
    have h3 : (1/3:ℝ) < Real.exp (-1) := by
      rw [Real.exp_neg, ← one_div]
      exact one_div_lt_one_div_of_lt (Real.exp_pos 1) (lt_trans Real.exp_one_lt_d9 (by norm_num))
    norm_num at h2 h3
    linarith
  have hlg := abs_le.1 lgf_le
  have tlg : Tens 0 3 |LG2 + LGH - 2 * LGC| := by
    refine ⟨?_, lgf_le.trans (by norm_num)⟩
    rw [abs_of_neg (by linarith)]; norm_num; linarith
  have tsum : Tens 0 3 |LG2 + LGH - 2 * LGC + 3 * Real.log ν| := by
    rw [abs_of_neg (by linarith)]
    constructor
    · norm_num; linarith
    · norm_num at hlg ⊢; linarith [hlg.1]
  have ix : IsT 6 16 x ν := ⟨by rw [hx]; exact Rep.fin ν, tens_abs tν⟩
  have i3 : IsT 0 1 (Flt.lit 3) 3 := isT_lit (by unfold Tens; norm_num) (by norm_num) (by norm_num)
  exact (((isT_lit tlg (by norm_num) (by norm_num)).add (i3.mul (ix.log h0 tlog (by norm_num) (by norm_num)) (by norm_num) (by norm_num)) tsum
    (by norm_num) (by norm_num))).exp (tE'.mono (by norm_num) (by norm_num)) (by norm_num) (by norm_num)

/-- the derivative of the real function, written as back-propagation computes it -/
theorem freq_deriv (hν : 0 < ν) (hT : 0 < T) : HasDerivAt (fun T => blackbody_freq_density ν T)
    (-(-(1 / WATTS_PER_LSUN * Real.exp (LG2 + LGH - 2 * LGC + 3 * Real.log ν)) * 1 * (1 / ((Real.exp (H_PLANCK * ν / (K_BOLTZ * T)) - 1) *
      (Real.exp (H_PLANCK * ν / (K_BOLTZ * T)) - 1))) * Real.exp (H_PLANCK * ν / (K_BOLTZ * T))) * (H_PLANCK * ν) *
      (1 / (K_BOLTZ * T * (K_BOLTZ * T))) * K_BOLTZ) T := by
  have hk := btw_k.pos
  have hh := btw_h.pos
  have hw := btw_w.pos
  have hx : 0 < H_PLANCK * ν / (K_BOLTZ * T) := by positivity
  have hu : Real.exp (H_PLANCK * ν / (K_BOLTZ * T)) - 1 ≠ 0 := by
    have := Real.add_one_lt_exp hx.ne'; linarith
  have hkt : HasDerivAt (fun T => K_BOLTZ * T) K_BOLTZ T := by simpa using (hasDerivAt_id T).const_mul K_BOLTZ
  have h1 := (((((hasDerivAt_const T (H_PLANCK * ν)).div hkt (by positivity)).exp.sub_const 1).fun_inv hu).mul_const
    (Real.exp (LG2 + LGH - 2 * LGC + 3 * Real.log ν))).div_const WATTS_PER_LSUN
  have e : (fun T => blackbody_freq_density ν T) = fun T => (Real.exp (H_PLANCK * ν / (K_BOLTZ * T)) - 1)⁻¹ *
      Real.exp (LG2 + LGH - 2 * LGC + 3 * Real.log ν) / WATTS_PER_LSUN := by
    funext T
    simp only [blackbody_freq_density, blackbody_freq_density_si, freq_density_denom, jax_bb_freq_density_exparg, one_div]
  rw [e]
  refine HasDerivAt.congr_deriv h1 ?_
  have hu2 : (Real.exp (H_PLANCK * ν / (K_BOLTZ * T)) - 1) ^ 2 ≠ 0 := pow_ne_zero 2 hu
  simp only [Pi.div_apply, zero_mul, zero_sub]
  generalize Real.exp (LG2 + LGH - 2 * LGC + 3 * Real.log ν) = E at *
  generalize Real.exp (H_PLANCK * ν / (K_BOLTZ * T)) = X at *
  field_simp

/-- C125: in a physical window (and `h ν / (k T) ≤ 200`) double precision neither overflows nor underflows: up to rounding, the gradient with
respect to the temperature is the derivative of the Planck function. -/
theorem C125_freq_gradient [DecidableEq ι] {k : ι} (hν : 1e6 ≤ ν ∧ ν ≤ 1e16) (hT : 1 ≤ T ∧ T ≤ 1e9)
    (hx : H_PLANCK * ν / (K_BOLTZ * T) ≤ 200) :
    Rep (Gen.blackbody_freq_density (RvO.const ⟨fin ν⟩) (RvO.var k (⟨fin T⟩ : Ranged float64))).v.x (blackbody_freq_density ν T) ∧
    ∃ g, HasDerivAt (fun T => blackbody_freq_density ν T) g T ∧
      Rep (RvO.grad (Gen.blackbody_freq_density (RvO.const ⟨fin ν⟩) (RvO.var k (⟨fin T⟩ : Ranged float64))) k).x g := by
  have tν : Tens 6 16 ν := ⟨by norm_num at hν ⊢; linarith, by norm_num at hν ⊢; linarith⟩
  have tT : Tens 0 9 T := ⟨by norm_num at hT ⊢; linarith, by norm_num at hT ⊢; linarith⟩
  have iν : IsT 6 16 (⟨fin ν⟩ : Ranged float64) ν := ⟨Rep.fin ν, tens_abs tν⟩
  have iT : IsT 0 9 (⟨fin T⟩ : Ranged float64) T := ⟨Rep.fin T, tens_abs tT⟩
  have ih := isT_lit (tens_abs btw_h) (by norm_num) (by norm_num)
  have ik := isT_lit (tens_abs btw_k) (by norm_num) (by norm_num)
  have iw := isT_lit (tens_abs btw_w) (by norm_num) (by norm_num)
  have ihv := ih.mul iν (by norm_num) (by norm_num)
  have ikt := ik.mul iT (by norm_num) (by norm_num)
  have ix := ihv.div ikt (by norm_num) (by norm_num)
  have tx := (btw_h.mul tν).div (btw_k.mul tT)
  have ix' : IsT (-20) 3 (Flt.lit H_PLANCK * ⟨fin ν⟩ / (Flt.lit K_BOLTZ * ⟨fin T⟩) : Ranged float64) (H_PLANCK * ν / (K_BOLTZ * T)) :=
    ⟨ix.1, by rw [abs_of_pos tx.pos]; exact ⟨le_trans (zpow_le_zpow_right₀ (by norm_num) (by norm_num)) tx.1, hx.trans (by norm_num)⟩⟩
  have iE := freq_factor_isT (x := ⟨fin ν⟩) rfl hν
  have ic := (isT_one.div iw (by norm_num) (by norm_num)).mul iE (by norm_num) (by norm_num)
  obtain ⟨d1, d2⟩ := denom_isT ix' tx.pos hx ic (by norm_num) (by norm_num)
  have iv := (d1.mul iE (by norm_num) (by norm_num)).div iw (by norm_num) (by norm_num)
  refine ⟨iv.1, _, freq_deriv tν.pos tT.pos, ?_⟩
  have ig := ((d2.neg.mul ihv (by norm_num) (by norm_num)).mul (isT_one.div (ikt.mul ikt (by norm_num) (by norm_num)) (by norm_num) (by norm_num))
    (by norm_num) (by norm_num)).mul ik (by norm_num) (by norm_num)
  have ig' := ig.is (by norm_num) (by norm_num)
  obtain ⟨b, hb⟩ : ∃ b : RvO (Ranged float64) ι, b = RvO.var k ⟨fin T⟩ := ⟨_, rfl⟩
  have hbk : ∀ c, b.back c k = c := fun c => by rw [hb]; exact if_pos rfl
  have hbv : b.v = ⟨fin T⟩ := by rw [hb]; rfl
  rw [← hb]
  have hg : RvO.grad (Gen.blackbody_freq_density (RvO.const ⟨fin ν⟩) b) k =
      ((Flt.lit 0 + (((Flt.lit 0 + Flt.lit 0) + (Flt.lit 0 + b.back (-(-((Flt.lit 1 / Flt.lit WATTS_PER_LSUN : Ranged float64) *
          Flt.exp (Gen.jax_bb_freq_density_exparg ⟨fin ν⟩)) * Flt.lit 1 *
        (Flt.lit 1 / ((Flt.exp (Flt.lit H_PLANCK * ⟨fin ν⟩ / (Flt.lit K_BOLTZ * b.v)) - Flt.lit 1) *
          (Flt.exp (Flt.lit H_PLANCK * ⟨fin ν⟩ / (Flt.lit K_BOLTZ * b.v)) - Flt.lit 1))) *
          Flt.exp (Flt.lit H_PLANCK * ⟨fin ν⟩ / (Flt.lit K_BOLTZ * b.v))) * (Flt.lit H_PLANCK * ⟨fin ν⟩) *
        (Flt.lit 1 / ((Flt.lit K_BOLTZ * b.v) * (Flt.lit K_BOLTZ * b.v))) * Flt.lit K_BOLTZ) k)) + Flt.lit 0)) +
        (Flt.lit 0 + (Flt.lit 0 + Flt.lit 0))) + Flt.lit 0 := rfl
  rw [hg, hbk, hbv]
  exact ((((zz.zero_add (is_zero.zero_add ig')).add_zero is_zero |> is_zero.zero_add).add_zero (is_zero.zero_add zz)).add_zero is_zero).1

/-- the factor `2 h c² / λ⁵`, exactly -/
theorem wave_factor_isT {x : Ranged float64} (hx : x.x = fin lam) (hl : 1e-8 ≤ lam ∧ lam ≤ 6e-4) :
    IsT 0 30 (Flt.exp (Flt.lit (LG2 + LGH + 2 * LGC) - Flt.lit 5 * Flt.log x)) (Real.exp (LG2 + LGH + 2 * LGC - 5 * Real.log lam)) := by
  have tl : Tens (-8) (-3) lam := ⟨by norm_num at hl ⊢; linarith, by norm_num at hl ⊢; linarith⟩
  have h0 := tl.pos
  have E : Real.exp (LG2 + LGH + 2 * LGC - 5 * Real.log lam) = 2 * H_PLANCK * (C_SPEED * C_SPEED) / (lam * lam * lam * lam * lam) := by
    rw [Real.exp_sub, Real.exp_add, Real.exp_add, show 2 * LGC = LGC + LGC by ring, Real.exp_add,
      show 5 * Real.log lam = Real.log lam + Real.log lam + Real.log lam + Real.log lam + Real.log lam by ring, Real.exp_add, Real.exp_add, Real.exp_add,
      Real.exp_add, LG2, LGH, LGC, Real.exp_log (by norm_num), Real.exp_log btw_h.pos, Real.exp_log btw_c.pos, Real.exp_log h0]
  have t0 : Tens (-16) (-15) (2 * H_PLANCK * (C_SPEED * C_SPEED)) := by unfold Tens H_PLANCK C_SPEED; norm_num
  have hE : 1.5 ≤ Real.exp (LG2 + LGH + 2 * LGC - 5 * Real.log lam) := by
    rw [E, le_div_iff₀ (by positivity)]
    have h2 : lam * lam ≤ 6e-4 * 6e-4 := mul_self_le_mul_self h0.le hl.2
    have h5 : lam * lam * lam * lam * lam ≤ 6e-4 * 6e-4 * 6e-4 * 6e-4 * 6e-4 := by
      have h3 := mul_le_mul h2 hl.2 h0.le (by positivity)
      have h4 := mul_le_mul h3 hl.2 h0.le (by positivity)
      exact mul_le_mul h4 hl.2 h0.le (by positivity)
    have h6 : (1.5:ℝ) * (6e-4 * 6e-4 * 6e-4 * 6e-4 * 6e-4) ≤ 2 * H_PLANCK * (C_SPEED * C_SPEED) := by unfold H_PLANCK C_SPEED; norm_num
    exact (mul_le_mul_of_nonneg_left h5 (by norm_num)).trans h6
  have tE : Tens 0 30 (Real.exp (LG2 + LGH + 2 * LGC - 5 * Real.log lam)) := by
    refine ⟨le_trans (by norm_num) hE, ?_⟩
    rw [E]; exact ((t0.div ((((tl.mul tl).mul tl).mul tl).mul tl)).mono (le_refl _) (by norm_num)).2
  have hlog : |Real.log lam| ≤ 19.2 := abs_log_le (tl.mono le_rfl (by norm_num : (-3:ℤ) ≤ 0)) (by norm_num) (by norm_num) (by norm_num) (by norm_num)
  have hlog1 : Real.log lam ≤ -1 := by
    rw [Real.log_le_iff_le_exp h0]
    have h3 : (1/3:ℝ) < Real.exp (-1) := by
      rw [Real.exp_neg, ← one_div]
      exact one_div_lt_one_div_of_lt (Real.exp_pos 1) (lt_trans Real.exp_one_lt_d9 (by norm_num))
    norm_num at hl h3 ⊢; linarith
  have hlog' := abs_le.1 hlog
  have tlog : Tens 0 2 |Real.log lam| := ⟨by rw [abs_of_neg (by linarith)]; norm_num; linarith, hlog.trans (by norm_num)⟩
  have hpos : 0.1 ≤ LG2 + LGH + 2 * LGC - 5 * Real.log lam := by
    by_contra h
    push Not at h
    have h1 := Real.exp_lt_exp.2 h
    have h3 : Real.exp 0.1 ≤ 1.5 := by
      have h4 : Real.exp 0.1 * Real.exp (-0.1) = 1 := by rw [← Real.exp_add]; simp
      have h5 : 1 + -0.1 ≤ Real.exp (-0.1) := by have := Real.add_one_le_exp (-0.1); linarith
      have h6 := Real.exp_pos 0.1
      norm_num at h4 h5 h6 ⊢
      nlinarith
    linarith
  have hlg := abs_le.1 lgw_le
  have hlgn : LG2 + LGH + 2 * LGC ≤ -1 := by
    have e1 : Real.exp (LG2 + LGH + 2 * LGC) = 2 * H_PLANCK * (C_SPEED * C_SPEED) := by
      rw [Real.exp_add, Real.exp_add, show 2 * LGC = LGC + LGC by ring, Real.exp_add, LG2, LGH, LGC, Real.exp_log (by norm_num),
        Real.exp_log btw_h.pos, Real.exp_log btw_c.pos]
    have h3 : (1/3:ℝ) < Real.exp (-1) := by
      rw [Real.exp_neg, ← one_div]
      exact one_div_lt_one_div_of_lt (Real.exp_pos 1) (lt_trans Real.exp_one_lt_d9 (by norm_num))
    rw [← Real.exp_le_exp, e1]
    have h4 := t0.2
    norm_num at h3 h4 ⊢; linarith
  have tlg : Tens 0 3 |LG2 + LGH + 2 * LGC| := by
    refine ⟨?_, lgw_le.trans (by norm_num)⟩
    rw [abs_of_neg (by linarith)]; norm_num; linarith
  have tsum : Tens (-1) 3 |LG2 + LGH + 2 * LGC - 5 * Real.log lam| := by
    rw [abs_of_pos (by linarith)]
    constructor
    · norm_num at hpos ⊢; linarith
    · norm_num at hlog' hlgn ⊢; linarith [hlog'.1]
  have ix : IsT (-8) (-3) x lam := ⟨by rw [hx]; exact Rep.fin lam, tens_abs tl⟩
  have i5 : IsT 0 1 (Flt.lit 5) 5 := isT_lit (by unfold Tens; norm_num) (by norm_num) (by norm_num)
  exact (((isT_lit tlg (by norm_num) (by norm_num)).sub (i5.mul (ix.log h0 tlog (by norm_num) (by norm_num)) (by norm_num) (by norm_num)) tsum
    (by norm_num) (by norm_num))).exp tE (by norm_num) (by norm_num)

theorem wave_deriv {l : ℝ} (hl : 0 < l) (hT : 0 < T) : HasDerivAt (fun T => blackbody_wave_density (l * 1e10) T)
    (-(-(1 * 1e-10 / WATTS_PER_LSUN * Real.exp (LG2 + LGH + 2 * LGC - 5 * Real.log l)) * 1 * (1 / ((Real.exp (H_PLANCK * C_SPEED / (K_BOLTZ * T) / l) - 1) *
      (Real.exp (H_PLANCK * C_SPEED / (K_BOLTZ * T) / l) - 1))) * Real.exp (H_PLANCK * C_SPEED / (K_BOLTZ * T) / l) / l) * (H_PLANCK * C_SPEED) *
      (1 / (K_BOLTZ * T * (K_BOLTZ * T))) * K_BOLTZ) T := by
  have hk := btw_k.pos
  have hh := btw_hc.pos
  have hw := btw_w.pos
  have hx : 0 < H_PLANCK * C_SPEED / (K_BOLTZ * T) / l := by positivity
  have hu : Real.exp (H_PLANCK * C_SPEED / (K_BOLTZ * T) / l) - 1 ≠ 0 := by
    have := Real.add_one_lt_exp hx.ne'; linarith
  have hkt : HasDerivAt (fun T => K_BOLTZ * T) K_BOLTZ T := by simpa using (hasDerivAt_id T).const_mul K_BOLTZ
  have h1 := ((((((((hasDerivAt_const T (H_PLANCK * C_SPEED)).div hkt (by positivity)).div_const l).exp.sub_const 1).fun_inv hu).const_mul
    (Real.exp (LG2 + LGH + 2 * LGC - 5 * Real.log l)))).div_const WATTS_PER_LSUN).mul_const 1e-10
  have e : (fun T => blackbody_wave_density (l * 1e10) T) = fun T => Real.exp (LG2 + LGH + 2 * LGC - 5 * Real.log l) *
      (Real.exp (H_PLANCK * C_SPEED / (K_BOLTZ * T) / l) - 1)⁻¹ / WATTS_PER_LSUN * 1e-10 := by
    funext T
    have e0 : l * 1e10 / 1e10 = l := mul_div_cancel_right₀ l (by norm_num)
    simp only [blackbody_wave_density, blackbody_wave_density_si, wave_density_denom, one_div, e0]
  rw [e]
  refine HasDerivAt.congr_deriv h1 ?_
  have hu2 : (Real.exp (H_PLANCK * C_SPEED / (K_BOLTZ * T) / l) - 1) ^ 2 ≠ 0 := pow_ne_zero 2 hu
  simp only [Pi.div_apply, zero_mul, zero_sub]
  generalize Real.exp (LG2 + LGH + 2 * LGC - 5 * Real.log l) = E at *
  generalize Real.exp (H_PLANCK * C_SPEED / (K_BOLTZ * T) / l) = X at *
  generalize H_PLANCK * C_SPEED = hc at *
  field_simp

/-- C125: the same for the wavelength density, from 100 Å to 600 µm. -/
theorem C125_wave_gradient [DecidableEq ι] {k : ι} (hl : 100 ≤ lam ∧ lam ≤ 6e6) (hT : 1 ≤ T ∧ T ≤ 1e9)
    (hx : H_PLANCK * C_SPEED / (K_BOLTZ * T) / (lam / 1e10) ≤ 200) :
    Rep (Gen.blackbody_wave_density (RvO.const ⟨fin lam⟩) (RvO.var k (⟨fin T⟩ : Ranged float64))).v.x (blackbody_wave_density lam T) ∧
    ∃ g, HasDerivAt (fun T => blackbody_wave_density lam T) g T ∧
      Rep (RvO.grad (Gen.blackbody_wave_density (RvO.const ⟨fin lam⟩) (RvO.var k (⟨fin T⟩ : Ranged float64))) k).x g := by
  have tl : Tens 2 7 lam := ⟨by norm_num at hl ⊢; linarith, by norm_num at hl ⊢; linarith⟩
  have tT : Tens 0 9 T := ⟨by norm_num at hT ⊢; linarith, by norm_num at hT ⊢; linarith⟩
  have t10 : Tens 10 10 1e10 := by unfold Tens; norm_num
  obtain ⟨l, hle⟩ : ∃ l, l = lam / 1e10 := ⟨_, rfl⟩
  have tm : Tens (-8) (-3) l := by rw [hle]; exact tl.div t10
  have hl' : 1e-8 ≤ l ∧ l ≤ 6e-4 := by
    rw [hle]; constructor <;> norm_num at hl ⊢ <;> linarith
  have hlam : lam = l * 1e10 := by rw [hle]; norm_num
  obtain ⟨a', ha'⟩ : ∃ a' : RvO (Ranged float64) ι, a' = RvO.const ⟨fin lam⟩ / Flt.lit 1e10 := ⟨_, rfl⟩
  have hv : a'.v.x = fin l := by rw [ha', hle]; exact wave_m rfl (tl.mono (by norm_num) (by norm_num))
  have il : IsT (-8) (-3) a'.v l := ⟨by rw [hv]; exact Rep.fin l, tens_abs tm⟩
  have iT : IsT 0 9 (⟨fin T⟩ : Ranged float64) T := ⟨Rep.fin T, tens_abs tT⟩
  have ih := isT_lit (tens_abs btw_hc) (by norm_num) (by norm_num)
  have ik := isT_lit (tens_abs btw_k) (by norm_num) (by norm_num)
  have iw := isT_lit (tens_abs btw_w) (by norm_num) (by norm_num)
  have i10 : IsT (-10) (-10) (Flt.lit 1e-10) 1e-10 := isT_lit (by unfold Tens; norm_num) (by norm_num) (by norm_num)
  have ikt := ik.mul iT (by norm_num) (by norm_num)
  have ix := (ih.div ikt (by norm_num) (by norm_num)).div il (by norm_num) (by norm_num)
  have tx := (btw_hc.div (btw_k.mul tT)).div tm
  rw [← hle] at hx
  have ix' : IsT (-20) 3 (Flt.lit (H_PLANCK * C_SPEED) / (Flt.lit K_BOLTZ * ⟨fin T⟩) / a'.v : Ranged float64) (H_PLANCK * C_SPEED / (K_BOLTZ * T) / l) :=
    ⟨ix.1, by rw [abs_of_pos tx.pos]; exact ⟨le_trans (zpow_le_zpow_right₀ (by norm_num) (by norm_num)) tx.1, hx.trans (by norm_num)⟩⟩
  have iE := wave_factor_isT hv hl'
  have ic := ((isT_one.mul i10 (by norm_num) (by norm_num)).div iw (by norm_num) (by norm_num)).mul iE (by norm_num) (by norm_num)
  obtain ⟨d1, d2⟩ := denom_isT ix' tx.pos hx ic (by norm_num) (by norm_num)
  have iv := ((iE.mul d1 (by norm_num) (by norm_num)).div iw (by norm_num) (by norm_num)).mul i10 (by norm_num) (by norm_num)
  have hval : blackbody_wave_density lam T = Real.exp (LG2 + LGH + 2 * LGC - 5 * Real.log l) * (1 / (Real.exp (H_PLANCK * C_SPEED / (K_BOLTZ * T) / l) - 1)) /
      WATTS_PER_LSUN * 1e-10 := by rw [hle]; rfl
  refine ⟨by rw [hval]; subst ha'; exact iv.1, _, by rw [hlam]; exact wave_deriv tm.pos tT.pos, ?_⟩
  have ig := (((d2.div il (by norm_num) (by norm_num)).neg.mul ih (by norm_num) (by norm_num)).mul (isT_one.div (ikt.mul ikt (by norm_num) (by norm_num)) (by norm_num) (by norm_num))
    (by norm_num) (by norm_num)).mul ik (by norm_num) (by norm_num)
  have ig' := ig.is (by norm_num) (by norm_num)
  obtain ⟨b, hb⟩ : ∃ b : RvO (Ranged float64) ι, b = RvO.var k ⟨fin T⟩ := ⟨_, rfl⟩
  have hbk : ∀ c, b.back c k = c := fun c => by rw [hb]; exact if_pos rfl
  have hbv : b.v = ⟨fin T⟩ := by rw [hb]; rfl
  rw [← hb]
  have hg : RvO.grad (Gen.blackbody_wave_density (RvO.const ⟨fin lam⟩) b) k =
      (((Flt.lit 0 + (Flt.lit 0 + (Flt.lit 0 + Flt.lit 0))) + (Flt.lit 0 + (((Flt.lit 0 + (Flt.lit 0 + b.back (-(
        -((Flt.lit 1 * Flt.lit 1e-10 / Flt.lit WATTS_PER_LSUN : Ranged float64) * Flt.exp (Flt.lit (LG2 + LGH + 2 * LGC) - Flt.lit 5 * Flt.log a'.v)) * Flt.lit 1 *
        (Flt.lit 1 / ((Flt.exp (Flt.lit (H_PLANCK * C_SPEED) / (Flt.lit K_BOLTZ * b.v) / a'.v) - Flt.lit 1) *
          (Flt.exp (Flt.lit (H_PLANCK * C_SPEED) / (Flt.lit K_BOLTZ * b.v) / a'.v) - Flt.lit 1))) *
          Flt.exp (Flt.lit (H_PLANCK * C_SPEED) / (Flt.lit K_BOLTZ * b.v) / a'.v) / a'.v) * Flt.lit (H_PLANCK * C_SPEED) *
        (Flt.lit 1 / ((Flt.lit K_BOLTZ * b.v) * (Flt.lit K_BOLTZ * b.v))) * Flt.lit K_BOLTZ) k)) + (Flt.lit 0 + Flt.lit 0)) + Flt.lit 0))) + Flt.lit 0) + Flt.lit 0 := by
    rw [ha']; rfl
  rw [hg, hbk, hbv]
  exact (((is_zero.zero_add (is_zero.zero_add zz)).zero_add (is_zero.zero_add (((is_zero.zero_add (is_zero.zero_add ig')).add_zero zz).add_zero is_zero))).add_zero
    is_zero |>.add_zero is_zero).1

end float64

/-! ### Single precision -/

section float32
variable {ι : Type} [DecidableEq ι] {k : ι} {T : ℝ}

theorem kt_sq_under (h0 : 0 < T) (hT : T ≤ 7800) (u : Ranged float32) (hu : u.x = fin T) :
    ∃ z, Rep (Flt.lit K_BOLTZ * u).x z ∧ z * z < float32.tiny := by
  have hk := btw_k.pos
  have hk1 : |K_BOLTZ| ≤ float32.max := by
    rw [abs_of_pos hk]; exact le_trans (by norm_num [K_BOLTZ]) float32.max_ge
  have htiny : float32.tiny = 2⁻¹ ^ 126 := rfl
  have hk2 : float32.In K_BOLTZ := ⟨by rw [abs_of_pos hk, htiny]; norm_num [K_BOLTZ], hk1⟩
  have hm : Rep (float32.fit (fin K_BOLTZ) * u.x) (K_BOLTZ * T) := by
    rw [float32.fit_in hk2, hu]; exact (Rep.fin _).mul (Rep.fin _)
  have hle : K_BOLTZ * T ≤ 1.0769063e-19 := by
    calc K_BOLTZ * T ≤ K_BOLTZ * 7800 := mul_le_mul_of_nonneg_left hT hk.le
      _ ≤ _ := by norm_num [K_BOLTZ]
  have hp : 0 < K_BOLTZ * T := by positivity
  have hmax : |K_BOLTZ * T| ≤ float32.max := by
    rw [abs_of_pos hp]; exact le_trans (hle.trans (by norm_num)) float32.max_ge
  have hbd := bd_fit (R := float32) hm le_rfl hmax
  obtain ⟨z, hz, hzle⟩ := hbd
  refine ⟨z, hz, ?_⟩
  rw [abs_of_pos hp] at hzle
  calc z * z = |z| * |z| := (abs_mul_abs_self z).symm
    _ ≤ 1.0769063e-19 * 1.0769063e-19 := mul_le_mul (hzle.trans hle) (hzle.trans hle) (abs_nonneg _) (by norm_num)
    _ < float32.tiny := by rw [htiny]; norm_num

/-- C125: in single precision (float32 arrays passed by the caller; the package itself enables 64 bits on import) the square of `k T` underflows up to 7800 K, so that the gradient with respect to the temperature
is never finite, at any frequency. -/
theorem C125_freq_single (h0 : 0 < T) (hT : T ≤ 7800) (nu : Ranged float32) :
    ¬ IsFinite (RvO.grad (Gen.blackbody_freq_density (RvO.const nu) (RvO.var k (⟨fin T⟩ : Ranged float32))) k).x := by
  obtain ⟨b, hb⟩ : ∃ b : RvO (Ranged float32) ι, b = RvO.var k ⟨fin T⟩ := ⟨_, rfl⟩
  have hbk : ∀ c, b.back c k = c := fun c => by rw [hb]; exact if_pos rfl
  have hi : Bad (Flt.lit 1 / ((Flt.lit K_BOLTZ * b.v) * (Flt.lit K_BOLTZ * b.v))) := by
    rw [hb]; exact bad_inv_sq (kt_sq_under h0 hT ⟨fin T⟩ rfl)
  rw [← hb]
  have hg : ∃ c z1 z2 z3 z4 z5 z6, RvO.grad (Gen.blackbody_freq_density (RvO.const nu) b) k =
      ((z1 + ((z2 + (z3 + b.back (c * (Flt.lit 1 / ((Flt.lit K_BOLTZ * b.v) * (Flt.lit K_BOLTZ * b.v))) * Flt.lit K_BOLTZ) k)) + z4)) + z5) + z6 :=
    ⟨_, _, _, _, _, _, _, rfl⟩
  obtain ⟨c, z1, z2, z3, z4, z5, z6, hg⟩ := hg
  rw [hg, hbk]
  exact ((((((hi.mul_right c).mul_left _).add_right z3).add_right z2).add_left z4 |>.add_right z1).add_left z5 |>.add_left z6).not_finite

/-- C125: the same for the wavelength density, at any wavelength. -/
theorem C125_wave_single (h0 : 0 < T) (hT : T ≤ 7800) (w : Ranged float32) :
    ¬ IsFinite (RvO.grad (Gen.blackbody_wave_density (RvO.const w) (RvO.var k (⟨fin T⟩ : Ranged float32))) k).x := by
  obtain ⟨b, hb⟩ : ∃ b : RvO (Ranged float32) ι, b = RvO.var k ⟨fin T⟩ := ⟨_, rfl⟩
  have hbk : ∀ c, b.back c k = c := fun c => by rw [hb]; exact if_pos rfl
  have hi : Bad (Flt.lit 1 / ((Flt.lit K_BOLTZ * b.v) * (Flt.lit K_BOLTZ * b.v))) := by
    rw [hb]; exact bad_inv_sq (kt_sq_under h0 hT ⟨fin T⟩ rfl)
  rw [← hb]
  have hg : ∃ c z1 z2 z3 z4 z5 z6 z7 z8, RvO.grad (Gen.blackbody_wave_density (RvO.const w) b) k =
      ((z1 + (z2 + (((z3 + (z4 + b.back (c * (Flt.lit 1 / ((Flt.lit K_BOLTZ * b.v) * (Flt.lit K_BOLTZ * b.v))) * Flt.lit K_BOLTZ) k)) + z5) + z6))) + z7) + z8 :=
    ⟨_, _, _, _, _, _, _, _, _, rfl⟩
  obtain ⟨c, z1, z2, z3, z4, z5, z6, z7, z8, hg⟩ := hg
  rw [hg, hbk]
  exact (((((((((hi.mul_right c).mul_left _).add_right z4).add_right z3).add_left z5).add_left z6).add_right z2).add_right z1).add_left z7 |>.add_left z8).not_finite

end float32

/-! ### Examples -/

/-- 1 µm at 20 K: the spectrum is zero, the gradient is nan, also of the mean over any grid that contains this wavelength -/
example : Rep (Gen.blackbody_wave_density (RvO.const ⟨fin 10000⟩) (RvO.var () (⟨fin 20⟩ : Ranged float64))).v.x 0 ∧
    RvO.grad (Gen.blackbody_wave_density (RvO.const ⟨fin 10000⟩) (RvO.var () (⟨fin 20⟩ : Ranged float64))) () = nanR _ := by
  have h := C125_wave_overflow (a := RvO.const ⟨fin 10000⟩) (b := RvO.var () (⟨fin 20⟩ : Ranged float64)) rfl rfl (by norm_num) (by norm_num)
    (by norm_num [H_PLANCK, C_SPEED, K_BOLTZ])
  exact ⟨h.1, h.2 _ () (Or.inr rfl)⟩
example (w : Fin 5 → ℝ) (h : w 2 = 10000) :
    RvO.grad (Flt.sum fun j => Gen.blackbody_wave_density (RvO.const ⟨fin (w j)⟩) (RvO.var () (⟨fin 20⟩ : Ranged float64))) () = nanR _ :=
  C125_sum_overflow (w := fun j => RvO.const ⟨fin (w j)⟩) (l := w) (k := 2) rfl rfl (by rw [h]; norm_num) (by norm_num)
    (by rw [h]; norm_num [H_PLANCK, C_SPEED, K_BOLTZ]) rfl
/-- 3·10¹⁴ Hz at 20 K -/
example : RvO.grad (Gen.blackbody_freq_density (RvO.var 1 ⟨fin 3e14⟩) (RvO.const (⟨fin 20⟩ : Ranged float64))) 1 = nanR _ :=
  (C125_freq_overflow (a := RvO.var 1 ⟨fin 3e14⟩) (b := RvO.const (⟨fin 20⟩ : Ranged float64)) rfl rfl (by norm_num) (by norm_num)
    (by norm_num [H_PLANCK, K_BOLTZ])).2 _ 1 (Or.inl rfl)
/-- 1 µm at 21 K is still finite -/
example : IsFinite (RvO.grad (Gen.blackbody_wave_density (RvO.const ⟨fin 10000⟩) (RvO.var () (⟨fin 21⟩ : Ranged float64))) ()).x :=
  C125_wave_finite (by norm_num) (by norm_num) (by norm_num [H_PLANCK, C_SPEED, K_BOLTZ]) ()
example : IsFinite (RvO.grad (Gen.blackbody_freq_density (RvO.const ⟨fin 3e14⟩) (RvO.var () (⟨fin 21⟩ : Ranged float64))) ()).x :=
  C125_freq_finite (by norm_num) (by norm_num) (by norm_num [H_PLANCK, K_BOLTZ]) ()
/-- 100 µm at 40 K: exact -/
example := C125_wave_gradient (k := ()) (lam := 1e6) (T := 40) (by norm_num) (by norm_num) (by norm_num [H_PLANCK, C_SPEED, K_BOLTZ])
example := C125_freq_gradient (k := ()) (ν := 3e12) (T := 40) (by norm_num) (by norm_num) (by norm_num [H_PLANCK, K_BOLTZ])
/-- 100 µm at 40 K in single precision -/
example : ¬ IsFinite (RvO.grad (Gen.blackbody_wave_density (RvO.const ⟨fin 1e6⟩) (RvO.var () (⟨fin 40⟩ : Ranged float32))) ()).x :=
  C125_wave_single (by norm_num) (by norm_num) _
example : ¬ IsFinite (RvO.grad (Gen.blackbody_freq_density (RvO.const ⟨fin 3e12⟩) (RvO.var () (⟨fin 5778⟩ : Ranged float32))) ()).x :=
  C125_freq_single (by norm_num) (by norm_num) _
/-- the Sun at 5000 Å in exact arithmetic -/
example (θ : Fin 2 → ℝ) (h0 : θ 0 = 5000) (h1 : θ 1 = 5778) :
    Traced True (Gen.blackbody_wave_density (Rv.var 0 (fin (θ 0))) (Rv.var 1 (fin (θ 1))) : Rv (Fin 2))
      (fun θ => blackbody_wave_density (θ 0) (θ 1)) θ :=
  C125_wave_exact (Traced.var 0) (Traced.var 1) (by rw [h0]; norm_num) (by rw [h1]; norm_num)
example (θ : Fin 2 → ℝ) (h0 : θ 0 = 6e14) (h1 : θ 1 = 5778) :
    Traced True (Gen.blackbody_freq_density (Rv.var 0 (fin (θ 0))) (Rv.var 1 (fin (θ 1))) : Rv (Fin 2))
      (fun θ => blackbody_freq_density (θ 0) (θ 1)) θ :=
  C125_freq_exact (Traced.var 0) (Traced.var 1) (by rw [h0]; norm_num) (by rw [h1]; norm_num)

end Dsps.Props
