import Verif.Lemmas.LcdmQuad
import Verif.Lemmas.Age

/-! Flat w0wa cosmologies: derivatives of the distance and lookback-time integrands, convexity, quadrature errors,
monotonicity. -/
namespace Dsps.Lemmas
open Jnp Dsps.Utils Dsps.FlatWcdm Spec Set
open scoped BigOperators

/-- `1/E` -/
noncomputable def Wf (Om w0 wa z : ℝ) : ℝ := 1 / Real.sqrt (friedmann Om w0 wa z)
/-- matter fraction -/
noncomputable def Wth (Om w0 wa z : ℝ) : ℝ := Om * (1 + z) ^ 3 / friedmann Om w0 wa z
/-- minus the equation of state -/
noncomputable def Wb (w0 wa z : ℝ) : ℝ := -(w0 + wa * (1 - Lv z))
/-- `-w` times the dark-energy fraction -/
noncomputable def Wp (Om w0 wa z : ℝ) : ℝ := (1 - Wth Om w0 wa z) * Wb w0 wa z
/-- `dp/dln a`, sign reversed -/
noncomputable def Wr (Om w0 wa z : ℝ) : ℝ :=
  -3 * Wth Om w0 wa z * Wb w0 wa z * Wp Om w0 wa z - (1 - Wth Om w0 wa z) * wa * Lv z
/-- `1/(E(1+z))` -/
noncomputable def Wq (Om w0 wa z : ℝ) : ℝ := 1 / Real.sqrt (friedmann Om w0 wa z) / (1 + z)

theorem Wq_eq (Om w0 wa z : ℝ) : Wq Om w0 wa z = Wf Om w0 wa z * Lv z := by unfold Wq Wf Lv; ring

variable {Om w0 wa z : ℝ}

theorem de_deriv (w0 wa : ℝ) (hz : -1 < z) :
    HasDerivAt (darkEnergyDensity w0 wa) (darkEnergyDensity w0 wa z * (3 * Lv z * (1 - Wb w0 wa z))) z := by
  have hu : (1 : ℝ) + z ≠ 0 := by linarith
  have h1 := (((hasDerivAt_id z).const_add 1).log (by simpa using hu)).const_mul (3 * (1 + w0 + wa))
  have h2 := (((((hasDerivAt_id z).const_add 1).inv (by simpa using hu))).const_sub 1).const_mul (3 * wa)
  have h3 := (h1.sub h2).exp
  have hev : darkEnergyDensity w0 wa =ᶠ[nhds z]
      fun x => Real.exp (3 * (1 + w0 + wa) * Real.log (1 + x) - 3 * wa * (1 - (1 + x)⁻¹)) := by
    filter_upwards [lt_mem_nhds hz] with x hx
    rw [de_exp hx]; simp
  refine HasDerivAt.congr_of_eventuallyEq ?_ hev
  refine h3.congr_deriv ?_
  have e := de_exp hz w0 wa
  simp only [one_div] at e
  simp only [id, Pi.sub_apply]
  rw [e]
  congr 1
  unfold Wb Lv
  field_simp; ring

theorem fr_deriv (hO : PhysicalOm Om) (w0 wa : ℝ) (hz : -1 < z) :
    HasDerivAt (friedmann Om w0 wa) (friedmann Om w0 wa z * (3 * Lv z * (1 - Wp Om w0 wa z))) z := by
  have h := ((((hasDerivAt_id z).const_add 1).pow 3).const_mul Om).add ((de_deriv w0 wa hz).const_mul (1 - Om))
  have e : friedmann Om w0 wa = fun z => Om * (1 + id z) ^ 3 + (1 - Om) * darkEnergyDensity w0 wa z := by
    funext z; rfl
  have hF := friedmann_pos hz hO w0 wa
  refine (h.congr_of_eventuallyEq (Filter.Eventually.of_forall fun x => by rw [e]; simp)).congr_deriv ?_
  have hth : friedmann Om w0 wa z * Wth Om w0 wa z = Om * (1 + z) ^ 3 := by
    unfold Wth; field_simp
  have hd : friedmann Om w0 wa z * (1 - Wth Om w0 wa z) = (1 - Om) * darkEnergyDensity w0 wa z := by
    rw [mul_sub, hth]; unfold friedmann; ring
  have hv : Lv z * (1 + z) = 1 := by unfold Lv; field_simp [show 1 + z ≠ 0 by linarith]
  have e2 : friedmann Om w0 wa z * (3 * Lv z * (1 - Wp Om w0 wa z))
      = 3 * Lv z * (friedmann Om w0 wa z * Wth Om w0 wa z)
        + 3 * Lv z * (1 - Wb w0 wa z) * (friedmann Om w0 wa z * (1 - Wth Om w0 wa z)) := by unfold Wp; ring
  rw [e2, hth, hd]
  simp
  linear_combination (-3 * Om * (1 + z) ^ 2) * hv

theorem Wf_pos (hO : PhysicalOm Om) (w0 wa : ℝ) (hz : -1 < z) : 0 < Wf Om w0 wa z :=
  one_div_pos.2 (Real.sqrt_pos.2 (friedmann_pos hz hO _ _))

theorem Wq_pos (hO : PhysicalOm Om) (w0 wa : ℝ) (hz : -1 < z) : 0 < Wq Om w0 wa z := by
  rw [Wq_eq]; exact mul_pos (Wf_pos hO w0 wa hz) (Lv_pos hz)

theorem Wth_nonneg (hO : PhysicalOm Om) (w0 wa : ℝ) (hz : -1 < z) : 0 ≤ Wth Om w0 wa z := by
  have : 0 < 1 + z := by linarith
  exact div_nonneg (mul_nonneg hO.1 (by positivity)) (friedmann_pos hz hO w0 wa).le

theorem Wth_le_one (hO : PhysicalOm Om) (w0 wa : ℝ) (hz : -1 < z) : Wth Om w0 wa z ≤ 1 := by
  unfold Wth
  rw [div_le_one (friedmann_pos hz hO w0 wa)]
  have := mul_nonneg (sub_nonneg.2 hO.2) (de_pos hz w0 wa).le
  unfold friedmann; linarith

theorem Wf_deriv (hO : PhysicalOm Om) (w0 wa : ℝ) (hz : -1 < z) :
    HasDerivAt (Wf Om w0 wa) (Wf Om w0 wa z * Lv z * (-(3 / 2) * (1 - Wp Om w0 wa z))) z := by
  have hP := friedmann_pos hz hO w0 wa
  have h := ((fr_deriv hO w0 wa hz).sqrt hP.ne').inv (Real.sqrt_pos.2 hP).ne'
  have e : Wf Om w0 wa = fun y => (Real.sqrt (friedmann Om w0 wa y))⁻¹ := by funext y; simp [Wf]
  rw [e]
  refine h.congr_deriv ?_
  simp only
  have hs := Real.sqrt_pos.2 hP
  have hsq := Real.sq_sqrt hP.le
  set s := Real.sqrt (friedmann Om w0 wa z) with hsdef
  rw [← hsq]
  field_simp

theorem Wth_deriv (hO : PhysicalOm Om) (w0 wa : ℝ) (hz : -1 < z) :
    HasDerivAt (Wth Om w0 wa) (3 * Wth Om w0 wa z * Wp Om w0 wa z * Lv z) z := by
  have hP := friedmann_pos hz hO w0 wa
  have h := (((((hasDerivAt_id z).const_add 1).pow 3).const_mul Om)).div (fr_deriv hO w0 wa hz) hP.ne'
  refine h.congr_deriv ?_
  have hv : (1 + z) * Lv z = 1 := by unfold Lv; field_simp [show 1 + z ≠ 0 by linarith]
  unfold Wth
  simp
  field_simp
  linear_combination (-Om * (1 + z) ^ 2) * hv

theorem Wb_deriv (w0 wa : ℝ) (hz : -1 < z) : HasDerivAt (Wb w0 wa) (-wa * Lv z ^ 2) z := by
  have h := ((((Lv_deriv hz).const_sub 1).const_mul wa).const_add w0).neg
  refine h.congr_deriv ?_
  ring

theorem Wp_deriv (hO : PhysicalOm Om) (w0 wa : ℝ) (hz : -1 < z) :
    HasDerivAt (Wp Om w0 wa) (Wr Om w0 wa z * Lv z) z := by
  have h := ((Wth_deriv hO w0 wa hz).const_sub 1).mul (Wb_deriv w0 wa hz)
  refine h.congr_deriv ?_
  unfold Wr; ring

/-- `dr/dln(1+z)` -/
noncomputable def Wdr (Om w0 wa z : ℝ) : ℝ :=
  -9 * Wth Om w0 wa z * Wb w0 wa z * Wp Om w0 wa z ^ 2 + 6 * Wth Om w0 wa z * wa * Lv z * Wp Om w0 wa z
    - 3 * Wth Om w0 wa z * Wb w0 wa z * Wr Om w0 wa z + (1 - Wth Om w0 wa z) * wa * Lv z

theorem Wr_deriv (hO : PhysicalOm Om) (w0 wa : ℝ) (hz : -1 < z) :
    HasDerivAt (Wr Om w0 wa) (Wdr Om w0 wa z * Lv z) z := by
  have ht := Wth_deriv hO w0 wa hz
  have h := (((ht.const_mul (-3)).mul (Wb_deriv w0 wa hz)).mul (Wp_deriv hO w0 wa hz)).sub
    (((ht.const_sub 1).mul_const wa).mul (Lv_deriv hz))
  refine h.congr_deriv ?_
  unfold Wdr
  simp
  ring

/-! ### the two integrands and the derivatives of `z` times them -/

/-- `dln f / dln(1+z)` with `e = 0` for the distance, `e = 1` for the lookback integrand -/
noncomputable def WA (e Om w0 wa z : ℝ) : ℝ := -(3 / 2) * (1 - Wp Om w0 wa z) - e
noncomputable def WA2 (e Om w0 wa z : ℝ) : ℝ :=
  WA e Om w0 wa z ^ 2 - WA e Om w0 wa z + 3 / 2 * Wr Om w0 wa z
noncomputable def WA3 (e Om w0 wa z : ℝ) : ℝ :=
  (WA e Om w0 wa z - 2) * WA2 e Om w0 wa z + (2 * WA e Om w0 wa z - 1) * (3 / 2 * Wr Om w0 wa z)
    + 3 / 2 * Wdr Om w0 wa z

theorem WA_deriv (hO : PhysicalOm Om) (w0 wa e : ℝ) (hz : -1 < z) :
    HasDerivAt (WA e Om w0 wa) (3 / 2 * Wr Om w0 wa z * Lv z) z := by
  have h := (((Wp_deriv hO w0 wa hz).const_sub 1).const_mul (-(3 / 2))).sub_const e
  refine h.congr_deriv ?_
  ring

theorem WA2_deriv (hO : PhysicalOm Om) (w0 wa e : ℝ) (hz : -1 < z) :
    HasDerivAt (WA2 e Om w0 wa)
      (((2 * WA e Om w0 wa z - 1) * (3 / 2 * Wr Om w0 wa z) + 3 / 2 * Wdr Om w0 wa z) * Lv z) z := by
  have hA := WA_deriv hO w0 wa e hz
  have h := ((hA.pow 2).sub hA).add ((Wr_deriv hO w0 wa hz).const_mul (3 / 2))
  refine h.congr_deriv ?_
  simp
  ring

/-- the integrand: `f` for `e = 0`, `q` for `e = 1` -/
structure WInt (e Om w0 wa : ℝ) (F : ℝ → ℝ) : Prop where
  d : ∀ z, -1 < z → HasDerivAt F (F z * Lv z * WA e Om w0 wa z) z

theorem Wf_int (hO : PhysicalOm Om) (w0 wa : ℝ) : WInt 0 Om w0 wa (Wf Om w0 wa) :=
  ⟨fun z hz => by simpa [WA] using Wf_deriv hO w0 wa hz⟩

theorem Wq_int (hO : PhysicalOm Om) (w0 wa : ℝ) : WInt 1 Om w0 wa (Wq Om w0 wa) :=
  ⟨fun z hz => by
    have h := (Wf_deriv hO w0 wa hz).mul (Lv_deriv hz)
    have e : Wq Om w0 wa = fun y => Wf Om w0 wa y * Lv y := by funext y; rw [Wq_eq]
    rw [e]
    refine h.congr_deriv ?_
    unfold WA; ring⟩

section
variable {e : ℝ} {F : ℝ → ℝ}

theorem WInt.d2 (h : WInt e Om w0 wa F) (hO : PhysicalOm Om) (hz : -1 < z) :
    HasDerivAt (fun z => F z * Lv z * WA e Om w0 wa z) (F z * Lv z ^ 2 * WA2 e Om w0 wa z) z := by
  have := ((h.d z hz).mul (Lv_deriv hz)).mul (WA_deriv hO w0 wa e hz)
  refine this.congr_deriv ?_
  unfold WA2; simp; ring

/-- `d/dz (z F)` -/
noncomputable def Wg (e Om w0 wa : ℝ) (F : ℝ → ℝ) (z : ℝ) : ℝ := F z * (1 + (1 - Lv z) * WA e Om w0 wa z)

theorem Wg_eq (hz : -1 < z) : Wg e Om w0 wa F z = F z + z * (F z * Lv z * WA e Om w0 wa z) := by
  have : 1 - Lv z = z * Lv z := by unfold Lv; have : 1 + z ≠ 0 := by linarith
                                   field_simp; ring
  unfold Wg; rw [this]; ring

theorem Wg_deriv (h : WInt e Om w0 wa F) (hO : PhysicalOm Om) (hz : -1 < z) :
    HasDerivAt (Wg e Om w0 wa F) (F z * (Lv z * (2 * WA e Om w0 wa z + (1 - Lv z) * WA2 e Om w0 wa z))) z := by
  have := (h.d z hz).mul ((((Lv_deriv hz).const_sub 1).mul (WA_deriv hO w0 wa e hz)).const_add 1)
  refine this.congr_deriv ?_
  unfold WA2; simp; ring

theorem Wg_deriv2 (h : WInt e Om w0 wa F) (hO : PhysicalOm Om) (hz : -1 < z) :
    HasDerivAt (fun z => F z * (Lv z * (2 * WA e Om w0 wa z + (1 - Lv z) * WA2 e Om w0 wa z)))
      (F z * Lv z ^ 2 * (3 * WA2 e Om w0 wa z + (1 - Lv z) * WA3 e Om w0 wa z)) z := by
  have := (h.d z hz).mul ((Lv_deriv hz).mul (((WA_deriv hO w0 wa e hz).const_mul 2).add
    (((Lv_deriv hz).const_sub 1).mul (WA2_deriv hO w0 wa e hz))))
  refine this.congr_deriv ?_
  unfold WA3 WA2; simp; ring

end

/-! ### bounds for dark energy between phantom and stiff -/

/-- admissible dark energy -/
structure WAdm (Om w0 wa : ℝ) : Prop where
  om : PhysicalOm Om
  np : NonPhantom w0 wa
  ns : NonStiff w0 wa

theorem WAdm.eta (h : WAdm Om w0 wa) : -1 ≤ wa ∧ wa ≤ 1 := by
  have h1 := h.np.1; have h2 := h.np.2; have h3 := h.ns.1; have h4 := h.ns.2
  constructor <;> linarith

theorem WAdm.b (h : WAdm Om w0 wa) (hz : 0 ≤ z) : 0 ≤ Wb w0 wa z ∧ Wb w0 wa z ≤ 1 := by
  have h1 := h.np.1; have h2 := h.np.2; have h3 := h.ns.1; have h4 := h.ns.2
  have v0 := (Lv_pos (by linarith : -1 < z)).le
  have v1 := Lv_le_one hz
  unfold Wb
  constructor <;> nlinarith

theorem WAdm.r (h : WAdm Om w0 wa) (hz : 0 ≤ z) : -(4 / 3) ≤ Wr Om w0 wa z ∧ Wr Om w0 wa z ≤ 1 := by
  have hz' : -1 < z := by linarith
  obtain ⟨b0, b1⟩ := h.b hz
  have t0 := Wth_nonneg h.om w0 wa hz'
  have t1 := Wth_le_one h.om w0 wa hz'
  obtain ⟨a0, a1⟩ := h.eta
  have v0 := (Lv_pos hz').le
  have v1 := Lv_le_one hz
  unfold Wr Wp
  set t := Wth Om w0 wa z
  set b := Wb w0 wa z
  have e1 : |wa * Lv z| ≤ 1 := by
    rw [abs_mul, abs_of_nonneg v0]
    exact mul_le_one₀ (abs_le.2 ⟨a0, a1⟩) v0 v1
  obtain ⟨c0, c1⟩ := abs_le.1 e1
  set c := wa * Lv z
  have b2 : b ^ 2 ≤ 1 := by nlinarith
  have ht : 0 ≤ t * (1 - t) := mul_nonneg t0 (by linarith)
  have e2 : t * (1 - t) * b ^ 2 ≤ t * (1 - t) := by nlinarith
  have e3 : 0 ≤ t * (1 - t) * b ^ 2 := by positivity
  have e4 : (1 - t) * c ≤ 1 - t := by nlinarith
  have e5 : -(1 - t) ≤ (1 - t) * c := by nlinarith
  have e : -3 * t * b * ((1 - t) * b) - (1 - t) * wa * Lv z = -3 * (t * (1 - t) * b ^ 2) - (1 - t) * c := by ring
  rw [e]
  constructor
  · nlinarith [sq_nonneg (t - 1 / 3)]
  · nlinarith

theorem WAdm.dr (h : WAdm Om w0 wa) (hz : 0 ≤ z) : |Wdr Om w0 wa z| ≤ 7 := by
  have hz' : -1 < z := by linarith
  obtain ⟨b0, b1⟩ := h.b hz
  have t0 := Wth_nonneg h.om w0 wa hz'
  have t1 := Wth_le_one h.om w0 wa hz'
  obtain ⟨a0, a1⟩ := h.eta
  have v0 := (Lv_pos hz').le
  have v1 := Lv_le_one hz
  obtain ⟨r0, r1⟩ := h.r hz
  unfold Wdr
  have ep : Wp Om w0 wa z = (1 - Wth Om w0 wa z) * Wb w0 wa z := rfl
  rw [ep]
  set t := Wth Om w0 wa z
  set b := Wb w0 wa z
  set r := Wr Om w0 wa z
  have e1 : |wa * Lv z| ≤ 1 := by
    rw [abs_mul, abs_of_nonneg v0]
    exact mul_le_one₀ (abs_le.2 ⟨a0, a1⟩) v0 v1
  set c := wa * Lv z
  have b3 : b ^ 3 ≤ 1 := pow_le_one₀ b0 b1
  have ht : 0 ≤ t * (1 - t) := mul_nonneg t0 (by linarith)
  have ht2 : 0 ≤ t * (1 - t) ^ 2 := by positivity
  have k1 : |t * (1 - t) ^ 2 * b ^ 3| ≤ 4 / 27 := by
    rw [abs_of_nonneg (by positivity)]
    have : t * (1 - t) ^ 2 ≤ 4 / 27 := by nlinarith [mul_nonneg (by linarith : (0:ℝ) ≤ 4 / 3 - t) (sq_nonneg (t - 1 / 3))]
    nlinarith [pow_nonneg b0 3]
  have k2 : |t * (1 - t) * b * c| ≤ 1 / 4 := by
    rw [abs_mul, abs_of_nonneg (mul_nonneg ht b0)]
    have : t * (1 - t) * b ≤ 1 / 4 := by nlinarith [sq_nonneg (t - 1 / 2)]
    have h0 := mul_nonneg ht b0
    nlinarith [abs_nonneg c]
  have k3 : |b * r| ≤ 4 / 3 := by
    rw [abs_mul, abs_of_nonneg b0]
    have : |r| ≤ 4 / 3 := abs_le.2 ⟨r0, by linarith⟩
    nlinarith [abs_nonneg r]
  obtain ⟨x1, y1⟩ := abs_le.1 k1
  obtain ⟨x2, y2⟩ := abs_le.1 k2
  obtain ⟨x3, y3⟩ := abs_le.1 k3
  obtain ⟨x4, y4⟩ := abs_le.1 e1
  have e : -9 * t * b * ((1 - t) * b) ^ 2 + 6 * t * wa * Lv z * ((1 - t) * b) - 3 * t * b * r + (1 - t) * wa * Lv z
      = -9 * (t * (1 - t) ^ 2 * b ^ 3) + 6 * (t * (1 - t) * b * c) - 3 * (t * (b * r)) + (1 - t) * c := by ring
  rw [e]
  have z1 : t * (b * r) ≤ t * (4 / 3) := mul_le_mul_of_nonneg_left y3 t0
  have z2 : t * (-(4 / 3)) ≤ t * (b * r) := mul_le_mul_of_nonneg_left x3 t0
  have z3 : (1 - t) * c ≤ (1 - t) * 1 := mul_le_mul_of_nonneg_left y4 (by linarith)
  have z4 : (1 - t) * (-1) ≤ (1 - t) * c := mul_le_mul_of_nonneg_left x4 (by linarith)
  rw [abs_le]; constructor <;> linarith

theorem WAdm.p (h : WAdm Om w0 wa) (hz : 0 ≤ z) : 0 ≤ Wp Om w0 wa z ∧ Wp Om w0 wa z ≤ 1 := by
  have hz' : -1 < z := by linarith
  obtain ⟨b0, b1⟩ := h.b hz
  have t0 := Wth_nonneg h.om w0 wa hz'
  have t1 := Wth_le_one h.om w0 wa hz'
  exact ⟨mul_nonneg (by linarith) b0, mul_le_one₀ (by linarith) b0 b1⟩

/-- bounds on the logarithmic derivatives -/
theorem WAdm.A (h : WAdm Om w0 wa) (hz : 0 ≤ z) (e : ℝ) : -(3 / 2) - e ≤ WA e Om w0 wa z ∧ WA e Om w0 wa z ≤ -e := by
  obtain ⟨p0, p1⟩ := h.p hz
  unfold WA; constructor <;> linarith

theorem WAdm.A2_f (h : WAdm Om w0 wa) (hz : 0 ≤ z) : -2 ≤ WA2 0 Om w0 wa z ∧ WA2 0 Om w0 wa z ≤ 21 / 4 := by
  obtain ⟨a0, a1⟩ := h.A hz 0
  obtain ⟨r0, r1⟩ := h.r hz
  unfold WA2; constructor <;> nlinarith

theorem WAdm.A2_q (h : WAdm Om w0 wa) (hz : 0 ≤ z) : 0 ≤ WA2 1 Om w0 wa z ∧ WA2 1 Om w0 wa z ≤ 41 / 4 := by
  obtain ⟨a0, a1⟩ := h.A hz 1
  obtain ⟨r0, r1⟩ := h.r hz
  unfold WA2; constructor <;> nlinarith

theorem WAdm.g_f (h : WAdm Om w0 wa) (hz : 0 ≤ z) :
    -(45 / 2) ≤ 3 * WA2 0 Om w0 wa z + (1 - Lv z) * WA3 0 Om w0 wa z := by
  obtain ⟨a0, a1⟩ := h.A hz 0
  obtain ⟨r0, r1⟩ := h.r hz
  obtain ⟨d0, d1⟩ := abs_le.1 (h.dr hz)
  obtain ⟨c0, c1⟩ := h.A2_f hz
  have v0 := (Lv_pos (by linarith : -1 < z)).le
  have v1 := Lv_le_one hz
  unfold WA3
  set A := WA 0 Om w0 wa z
  set A2 := WA2 0 Om w0 wa z
  set r := Wr Om w0 wa z
  set u := 1 - Lv z with hu
  have u0 : 0 ≤ u := by linarith
  have u1 : u ≤ 1 := by linarith
  have m0 : -(1 / 2) ≤ 3 + u * (A - 2) := by nlinarith
  have m1 : 3 + u * (A - 2) ≤ 3 := by nlinarith
  have k1 : -6 ≤ A2 * (3 + u * (A - 2)) := by
    rcases le_total 0 (3 + u * (A - 2)) with hm | hm
    · nlinarith
    · nlinarith
  have k2 : -6 ≤ (2 * A - 1) * (3 / 2 * r) := by nlinarith
  have k3 : -(33 / 2) ≤ u * ((2 * A - 1) * (3 / 2 * r) + 3 / 2 * Wdr Om w0 wa z) := by
    have : -(33 / 2) ≤ (2 * A - 1) * (3 / 2 * r) + 3 / 2 * Wdr Om w0 wa z := by linarith
    nlinarith
  nlinarith

theorem WAdm.g_q (h : WAdm Om w0 wa) (hz : 0 ≤ z) :
    -35 ≤ 3 * WA2 1 Om w0 wa z + (1 - Lv z) * WA3 1 Om w0 wa z := by
  obtain ⟨a0, a1⟩ := h.A hz 1
  obtain ⟨r0, r1⟩ := h.r hz
  obtain ⟨d0, d1⟩ := abs_le.1 (h.dr hz)
  obtain ⟨c0, c1⟩ := h.A2_q hz
  have v0 := (Lv_pos (by linarith : -1 < z)).le
  have v1 := Lv_le_one hz
  unfold WA3
  set A := WA 1 Om w0 wa z
  set A2 := WA2 1 Om w0 wa z
  set r := Wr Om w0 wa z
  set u := 1 - Lv z with hu
  have u0 : 0 ≤ u := by linarith
  have u1 : u ≤ 1 := by linarith
  have m0 : -(3 / 2) ≤ 3 + u * (A - 2) := by nlinarith
  have k1 : -(31 / 2) ≤ A2 * (3 + u * (A - 2)) := by nlinarith
  have k2 : -9 ≤ (2 * A - 1) * (3 / 2 * r) := by nlinarith
  have k3 : -(39 / 2) ≤ u * ((2 * A - 1) * (3 / 2 * r) + 3 / 2 * Wdr Om w0 wa z) := by
    have : -(39 / 2) ≤ (2 * A - 1) * (3 / 2 * r) + 3 / 2 * Wdr Om w0 wa z := by linarith
    nlinarith
  nlinarith

/-! ### consequences -/

theorem Wf_le_one (h : WAdm Om w0 wa) (hz : 0 ≤ z) : Wf Om w0 wa z ≤ 1 := by
  unfold Wf
  have := one_le_Ez h.om h.np hz
  rw [Ez_eq (by linarith)] at this
  rw [div_le_one (by linarith)]; exact this

theorem Wq_le_Lv (h : WAdm Om w0 wa) (hz : 0 ≤ z) : Wq Om w0 wa z ≤ Lv z := by
  rw [Wq_eq]; exact mul_le_of_le_one_left (Lv_pos (by linarith)).le (Wf_le_one h hz)

theorem fr_le_cube (h : WAdm Om w0 wa) (hz : 0 ≤ z) : friedmann Om w0 wa z ≤ (1 + z) ^ 3 := by
  have h1 := de_le_cube h.ns hz
  have h2 := mul_le_mul_of_nonneg_left h1 (sub_nonneg.2 h.om.2)
  unfold friedmann; linarith

theorem Wf_ge (h : WAdm Om w0 wa) (hz : 0 ≤ z) : 1 / Real.sqrt ((1 + z) ^ 3) ≤ Wf Om w0 wa z := by
  unfold Wf
  exact one_div_le_one_div_of_le (Real.sqrt_pos.2 (friedmann_pos (by linarith) h.om _ _))
    (Real.sqrt_le_sqrt (fr_le_cube h hz))

theorem Wq_ge (h : WAdm Om w0 wa) (hz : 0 ≤ z) : 1 / Real.sqrt ((1 + z) ^ 3) / (1 + z) ≤ Wq Om w0 wa z := by
  have := Wf_ge h hz
  have h1 : 0 < 1 + z := by linarith
  have e : Wq Om w0 wa z = Wf Om w0 wa z / (1 + z) := by rw [Wq_eq]; unfold Lv; ring
  rw [e]; gcongr

theorem Wq_convex (h : WAdm Om w0 wa) : ConvexOn ℝ (Ici 0) (Wq Om w0 wa) :=
  convexOn_Ici (Wq_int h.om w0 wa).d (fun _ hx => (Wq_int h.om w0 wa).d2 h.om hx) (fun x hx => by
    have h1 := Wq_pos h.om w0 wa (by linarith : -1 < x)
    have h2 := (h.A2_q hx).1
    positivity)

theorem Dtrap_w (Om w0 wa : ℝ) (hz : 0 ≤ z) :
    Dtrap z Om w0 wa = trapz (linspace 0 z 254) (fun i => Wf Om w0 wa (linspace 0 z 254 i)) := by
  unfold Dtrap
  congr 1; funext i
  rw [Ez_eq (by linarith [linspace_nonneg hz 254 i])]; rfl

theorem Ttrap_w (Om w0 wa : ℝ) (hz : 0 ≤ z) :
    Ttrap z Om w0 wa = trapz (linspace 0 z 510) (fun i => Wq Om w0 wa (linspace 0 z 510 i)) := by
  unfold Ttrap
  congr 1; funext i
  rw [Ez_eq (by linarith [linspace_nonneg hz 510 i])]; rfl

theorem Atrap_w (Om w0 wa : ℝ) : Atrap Om w0 wa = trapz (n := 511) agrid (fun i => Wq Om w0 wa (agrid i)) := by
  unfold Atrap
  congr 1; funext i
  rw [Ez_eq (by linarith [agrid_nonneg i])]; rfl

theorem Dtrap_strictMonoOn_w (h : WAdm Om w0 wa) : StrictMonoOn (fun z => Dtrap z Om w0 wa) (Icc 0 40) := by
  have hI := Wf_int h.om w0 wa
  have hconv : ConvexOn ℝ (Ici 0) (fun x => Wg 0 Om w0 wa (Wf Om w0 wa) x + -(45 / 2) * Real.log (1 + x)) :=
    convexOn_Ici (fun x hx => (Wg_deriv hI h.om hx).add (neglog_deriv hx (45 / 2)))
      (fun x hx => (Wg_deriv2 hI h.om hx).add (neglog_deriv2 hx (45 / 2)))
      (fun x hx => by
        have hx' : -1 < x := by linarith
        have h1 := h.g_f hx
        have h2 := Wf_le_one h hx
        have h3 := (Wf_pos h.om w0 wa hx').le
        have h4 : 0 ≤ Wf Om w0 wa x * Lv x ^ 2 := by positivity
        have h5 : Wf Om w0 wa x * Lv x ^ 2 ≤ Lv x ^ 2 := mul_le_of_le_one_left (sq_nonneg _) h2
        have h6 := mul_le_mul_of_nonneg_left h1 h4
        linarith)
  have hm := unif_strictMonoOn (F := Wf Om w0 wa) (fun t ht => hI.d t ht) (fun t ht => Wg_eq ht)
    (fun t ht => Wg_deriv hI h.om ht) (neglog_convex (by norm_num : (0 : ℝ) ≤ 45 / 2))
    (fun t ht => neglog_deriv ht (45 / 2)) hconv 254 (Z := 40) (by
      intro z hz hz1
      have h1 := Wf_ge h hz.le
      have h2 : Real.sqrt ((1 + z) ^ 3) ≤ 263 := by
        rw [show (263 : ℝ) = Real.sqrt (263 ^ 2) by rw [Real.sqrt_sq]; norm_num]
        apply Real.sqrt_le_sqrt
        calc (1 + z) ^ 3 ≤ 41 ^ 3 := pow_le_pow_left₀ (by linarith) (by linarith) 3
          _ ≤ _ := by norm_num
      have h3 : 1 / 263 ≤ Wf Om w0 wa z := le_trans (one_div_le_one_div_of_le (Real.sqrt_pos.2 (by positivity)) h2) h1
      have h4 : Lv 0 = 1 := by simp [Lv]
      have h5 := Lv_pos (by linarith : -1 < z)
      have h6 : (z / (((254 : ℕ) : ℝ) + 1)) ^ 2 / 4 * (-(45 / 2) * Lv z - -(45 / 2) * Lv 0)
          ≤ (z / (((254 : ℕ) : ℝ) + 1)) ^ 2 / 4 * (45 / 2) := by
        apply mul_le_mul_of_nonneg_left _ (by positivity)
        rw [h4]; linarith
      have h7 : (z / (((254 : ℕ) : ℝ) + 1)) ^ 2 / 4 * (45 / 2) < z * (1 / 263) := by
        push_cast; nlinarith
      have h8 := mul_le_mul_of_nonneg_left h3 hz.le
      linarith)
  exact hm.congr fun z hz => (Dtrap_w Om w0 wa hz.1).symm

theorem Ttrap_strictMonoOn_w (h : WAdm Om w0 wa) : StrictMonoOn (fun z => Ttrap z Om w0 wa) (Icc 0 22) := by
  have hI := Wq_int h.om w0 wa
  have hconv : ConvexOn ℝ (Ici 0) (fun x => Wg 1 Om w0 wa (Wq Om w0 wa) x + 35 / 2 * Lv x) :=
    convexOn_Ici (fun x hx => (Wg_deriv hI h.om hx).add (mulv_deriv hx (35 / 2)))
      (fun x hx => (Wg_deriv2 hI h.om hx).add (mulv_deriv2 hx (35 / 2)))
      (fun x hx => by
        have hx' : -1 < x := by linarith
        have h1 := h.g_q hx
        have h2 := Wq_le_Lv h hx
        have h3 := (Wq_pos h.om w0 wa hx').le
        have h4 : 0 ≤ Wq Om w0 wa x * Lv x ^ 2 := by positivity
        have h5 : Wq Om w0 wa x * Lv x ^ 2 ≤ Lv x * Lv x ^ 2 := mul_le_mul_of_nonneg_right h2 (sq_nonneg _)
        have h6 := mul_le_mul_of_nonneg_left h1 h4
        nlinarith)
  have hm := unif_strictMonoOn (F := Wq Om w0 wa) (fun t ht => hI.d t ht) (fun t ht => Wg_eq ht)
    (fun t ht => Wg_deriv hI h.om ht) (mulv_convex (by norm_num : (0 : ℝ) ≤ 35 / 2))
    (fun t ht => mulv_deriv ht (35 / 2)) hconv 510 (Z := 22) (by
      intro z hz hz1
      have h1 := Wq_ge h hz.le
      have h2 : Real.sqrt ((1 + z) ^ 3) ≤ 110.31 := by
        rw [show (110.31 : ℝ) = Real.sqrt (110.31 ^ 2) by rw [Real.sqrt_sq]; norm_num]
        apply Real.sqrt_le_sqrt
        calc (1 + z) ^ 3 ≤ 23 ^ 3 := pow_le_pow_left₀ (by linarith) (by linarith) 3
          _ ≤ _ := by norm_num
      have h3 : 1 / 110.31 / 23 ≤ Wq Om w0 wa z := by
        refine le_trans ?_ h1
        have := Real.sqrt_pos.2 (by positivity : 0 < (1 + z) ^ 3)
        gcongr
        linarith
      have h4 : Lv 0 = 1 := by simp [Lv]
      have h5 := Lv_pos (by linarith : -1 < z)
      have h6 : (z / (((510 : ℕ) : ℝ) + 1)) ^ 2 / 4 * (-(35 / 2) * Lv z ^ 2 - -(35 / 2) * Lv 0 ^ 2)
          ≤ (z / (((510 : ℕ) : ℝ) + 1)) ^ 2 / 4 * (35 / 2) := by
        apply mul_le_mul_of_nonneg_left _ (by positivity)
        rw [h4]; nlinarith
      have h7 : (z / (((510 : ℕ) : ℝ) + 1)) ^ 2 / 4 * (35 / 2) < z * (1 / 110.31 / 23) := by
        push_cast; nlinarith
      have h8 := mul_le_mul_of_nonneg_left h3 hz.le
      linarith)
  exact hm.congr fun z hz => (Ttrap_w Om w0 wa hz.1).symm

theorem Dtrap_quad_w (h : WAdm Om w0 wa) (hz : 0 ≤ z) :
    |Dtrap z Om w0 wa - ∫ t in (0 : ℝ)..z, Wf Om w0 wa t| ≤ 21 / 16 * (z / 255) ^ 2 * (z / (1 + z)) := by
  have hI := Wf_int h.om w0 wa
  have hb : ∀ x, 0 ≤ x → |Wf Om w0 wa x * Lv x ^ 2 * WA2 0 Om w0 wa x| ≤ 21 / 4 * Lv x ^ 2 := by
    intro x hx
    have hx' : -1 < x := by linarith
    rw [abs_mul, abs_of_nonneg (mul_nonneg (Wf_pos h.om w0 wa hx').le (sq_nonneg (Lv x)))]
    have h1 : |WA2 0 Om w0 wa x| ≤ 21 / 4 := abs_le.2 ⟨by linarith [(h.A2_f hx).1], (h.A2_f hx).2⟩
    have h2 := Wf_le_one h hx
    have h3 := (Wf_pos h.om w0 wa hx').le
    calc _ ≤ 1 * Lv x ^ 2 * (21 / 4) := by gcongr
      _ = _ := by ring
  have hc1 : ConvexOn ℝ (Ici 0) (fun x => Wf Om w0 wa x + -(21 / 4) * Real.log (1 + x)) :=
    convexOn_Ici (fun x hx => (hI.d x hx).add (neglog_deriv hx (21 / 4)))
      (fun x hx => (hI.d2 h.om hx).add (neglog_deriv2 hx (21 / 4)))
      (fun x hx => by have := (abs_le.1 (hb x hx)).1; linarith)
  have hc2 : ConvexOn ℝ (Ici 0) (fun x => -(21 / 4) * Real.log (1 + x) - Wf Om w0 wa x) :=
    convexOn_Ici (fun x hx => (neglog_deriv hx (21 / 4)).sub (hI.d x hx))
      (fun x hx => (neglog_deriv2 hx (21 / 4)).sub (hI.d2 h.om hx))
      (fun x hx => by have := (abs_le.1 (hb x hx)).2; linarith)
  have hf := contOn_Ici hI.d
  have hl := contOn_Ici (fun x hx => neglog_deriv (z := x) hx (21 / 4))
  have h1 := compare_ge hf hl (neglog_convex (by norm_num))
    (fun t ht => neglog_deriv (by linarith) (21 / 4)) hc1 hz 254
  have h2 := compare_le hf hl (neglog_convex (by norm_num))
    (fun t ht => neglog_deriv (by linarith) (21 / 4)) hc2 hz 254
  rw [Dtrap_w Om w0 wa hz]
  have e : (z / (((254 : ℕ) : ℝ) + 1)) ^ 2 / 4 * (-(21 / 4) * Lv z - -(21 / 4) * Lv 0)
      = 21 / 16 * (z / 255) ^ 2 * (z / (1 + z)) := by
    unfold Lv; have : 1 + z ≠ 0 := by linarith
    push_cast; field_simp; ring
  rw [e] at h1 h2
  rw [abs_le]; constructor <;> linarith

theorem Ttrap_quad_w (h : WAdm Om w0 wa) (hz : 0 ≤ z) :
    (∫ t in (0 : ℝ)..z, Wq Om w0 wa t) ≤ Ttrap z Om w0 wa ∧
    Ttrap z Om w0 wa ≤ (∫ t in (0 : ℝ)..z, Wq Om w0 wa t) + 5 / 8 * (z / 511) ^ 2 := by
  have hI := Wq_int h.om w0 wa
  have hq := contOn_Ici hI.d
  have h1 := convex_unif_ge hq (Wq_convex h) hz 510
  have h2 := convex_unif_le hq (Wq_convex h) (fun t ht => hI.d t (by linarith)) hz 510
  rw [Ttrap_w Om w0 wa hz]
  refine ⟨h1, h2.trans ?_⟩
  have hz' : -1 < z := by linarith
  have a1 : Wq Om w0 wa z * Lv z * WA 1 Om w0 wa z ≤ 0 := by
    have := (h.A hz 1).2
    have h1 := Lv_pos hz'
    have h2 := Wq_pos h.om w0 wa hz'
    exact mul_nonpos_of_nonneg_of_nonpos (by positivity) (by linarith)
  have a2 : Lv 0 = 1 := by simp [Lv]
  have a3 : Wq Om w0 wa 0 = 1 := by simp [Wq, friedmann_zero]
  have a4 := (h.A le_rfl 1).1
  rw [a2, a3]
  have : (z / (((510 : ℕ) : ℝ) + 1)) ^ 2 / 4 * (Wq Om w0 wa z * Lv z * WA 1 Om w0 wa z - 1 * 1 * WA 1 Om w0 wa 0)
      ≤ (z / (((510 : ℕ) : ℝ) + 1)) ^ 2 / 4 * (5 / 2) := by
    apply mul_le_mul_of_nonneg_left _ (by positivity)
    linarith
  have e : (z / (((510 : ℕ) : ℝ) + 1)) ^ 2 / 4 * (5 / 2) = 5 / 8 * (z / 511) ^ 2 := by push_cast; ring
  linarith

theorem Wq_intble (h : WAdm Om w0 wa) {a b : ℝ} (ha : 0 ≤ a) (hb : 0 ≤ b) :
    IntervalIntegrable (Wq Om w0 wa) MeasureTheory.volume a b :=
  ((contOn_Ici (Wq_int h.om w0 wa).d).mono (fun x hx => by
    have : min a b ≤ x := by have := hx.1; simpa using this
    exact le_trans (le_min ha hb) this)).intervalIntegrable

theorem Atrap_ge_w (h : WAdm Om w0 wa) : ∫ t in (0 : ℝ)..999, Wq Om w0 wa t ≤ Atrap Om w0 wa := by
  have := integral_le_trapz (n := 511) ordConnected_Ici (contOn_Ici (Wq_int h.om w0 wa).d) (Wq_convex h)
    agrid agrid_mono.monotone agrid_nonneg
  rwa [agrid_zero, agrid_last, ← Atrap_w] at this

theorem Wq'_diff (h : WAdm Om w0 wa) {a b : ℝ} (ha : 0 ≤ a) (hab : a ≤ b) :
    Wq Om w0 wa b * Lv b * WA 1 Om w0 wa b - Wq Om w0 wa a * Lv a * WA 1 Om w0 wa a
      ≤ 41 / 4 * Lv a ^ 2 * ∫ t in a..b, Wq Om w0 wa t := by
  have hI := Wq_int h.om w0 wa
  have hc : ContinuousOn (fun z => Wq Om w0 wa z * Lv z ^ 2 * WA2 1 Om w0 wa z) (Icc a b) := by
    intro x hx
    have hx' : -1 < x := by linarith [hx.1]
    exact (((hI.d x hx').continuousAt.mul ((Lv_deriv hx').continuousAt.pow 2)).mul
      (WA2_deriv h.om w0 wa 1 hx').continuousAt).continuousWithinAt
  have h0 := intervalIntegral.integral_eq_sub_of_hasDerivAt (a := a) (b := b)
    (f := fun z => Wq Om w0 wa z * Lv z * WA 1 Om w0 wa z)
    (fun x hx => hI.d2 h.om (by rw [uIcc_of_le hab] at hx; linarith [hx.1]))
    ((hc.mono (by rw [uIcc_of_le hab])).intervalIntegrable)
  rw [← h0, ← intervalIntegral.integral_const_mul]
  apply intervalIntegral.integral_mono_on hab
  · exact (hc.mono (by rw [uIcc_of_le hab])).intervalIntegrable
  · exact (Wq_intble h ha (ha.trans hab)).const_mul _
  · intro x hx
    have hx0 : 0 ≤ x := ha.trans hx.1
    have hx' : -1 < x := by linarith
    have h1 := (h.A2_q hx0)
    have h3 := (Wq_pos h.om w0 wa hx').le
    have h4 : Lv x ≤ Lv a := one_div_le_one_div_of_le (by linarith) (by linarith [hx.1])
    have h5 := (Lv_pos hx').le
    calc _ ≤ Wq Om w0 wa x * Lv a ^ 2 * (41 / 4) := by
          have := h1.1; have := h1.2; gcongr
      _ = _ := by ring

theorem Atrap_le_w (h : WAdm Om w0 wa) :
    Atrap Om w0 wa ≤ (1 + 0.0005) * ∫ t in (0 : ℝ)..999, Wq Om w0 wa t := by
  have hI := Wq_int h.om w0 wa
  have hh := trapz_le_integral (n := 511) ordConnected_Ici (contOn_Ici hI.d) (Wq_convex h)
    (fun t (ht : t ∈ Ici 0) => hI.d t (by simp at ht; linarith)) agrid agrid_mono.monotone agrid_nonneg
  rw [← Atrap_w] at hh
  have hs := sum_cells (f := Wq Om w0 wa) agrid (fun i => Wq_intble h (agrid_nonneg _) (agrid_nonneg _))
  rw [agrid_zero, agrid_last] at hh hs
  have hk : 41 / 16 * (aratio - 1) ^ 2 ≤ 0.0005 := by
    have h1 := aratio_gt
    have h2 := aratio_lt
    have h3 : aratio - 1 ≤ 0.0137 := by linarith
    have h4 : (aratio - 1) ^ 2 ≤ 0.0137 ^ 2 := pow_le_pow_left₀ (by linarith) h3 2
    nlinarith
  have hb : ∑ i : Fin 511, (agrid i.succ - agrid i.castSucc) ^ 2 / 4 *
      (Wq Om w0 wa (agrid i.succ) * Lv (agrid i.succ) * WA 1 Om w0 wa (agrid i.succ)
        - Wq Om w0 wa (agrid i.castSucc) * Lv (agrid i.castSucc) * WA 1 Om w0 wa (agrid i.castSucc))
      ≤ ∑ i : Fin 511, 0.0005 * ∫ t in agrid i.castSucc..agrid i.succ, Wq Om w0 wa t := by
    apply Finset.sum_le_sum
    intro i _
    have h0 := agrid_nonneg i.castSucc
    have hle := (agrid_mono (Fin.castSucc_lt_succ (i := i))).le
    have hd := Wq'_diff h h0 hle
    have hstep : agrid i.succ - agrid i.castSucc = (aratio - 1) * (1 + agrid i.castSucc) := by
      have := agrid_succ i; linarith
    have hI0 : 0 ≤ ∫ t in agrid i.castSucc..agrid i.succ, Wq Om w0 wa t :=
      intervalIntegral.integral_nonneg hle (fun x hx => (Wq_pos h.om w0 wa (by linarith [hx.1])).le)
    have hv : Lv (agrid i.castSucc) * (1 + agrid i.castSucc) = 1 := by
      unfold Lv; field_simp
    rw [hstep]
    calc _ ≤ ((aratio - 1) * (1 + agrid i.castSucc)) ^ 2 / 4 *
          (41 / 4 * Lv (agrid i.castSucc) ^ 2 * ∫ t in agrid i.castSucc..agrid i.succ, Wq Om w0 wa t) :=
          mul_le_mul_of_nonneg_left hd (div_nonneg (sq_nonneg _) (by norm_num))
      _ = 41 / 16 * (aratio - 1) ^ 2 * (Lv (agrid i.castSucc) * (1 + agrid i.castSucc)) ^ 2
          * ∫ t in agrid i.castSucc..agrid i.succ, Wq Om w0 wa t := by ring
      _ ≤ _ := by rw [hv, one_pow, mul_one]; exact mul_le_mul_of_nonneg_right hk hI0
  rw [← Finset.mul_sum, hs] at hb
  linarith

end Dsps.Lemmas
