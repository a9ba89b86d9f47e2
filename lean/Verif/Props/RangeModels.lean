import Verif.Lemmas.RangeNear
import Verif.Model.GenMore

/-!
C165: the components next to the galaxy model (mass-metallicity relations, stellar returns, dust transmission, bursts) in a float type with the range of single precision and
denormals flushed to zero: nothing overflows, nothing becomes nan, and the result is the exact one up to an error far below the rounding of the format.
-/
namespace Dsps.Props
open XF Range Dsps.Lemmas

variable {R : Range} {a b : Ranged R} {y : ℝ} {n : ℕ}

/-- **Specification.**  The float is finite and within 1e-15 of the number. -/
def Close (a : Ranged R) (y : ℝ) : Prop := ∃ v, Rep a.x v ∧ |v - y| ≤ 1e-15

theorem ne_close {e B : ℝ} (h : Ny e B a y) (he : e ≤ 1e-15 := by norm_num) : Close a y := by
  obtain ⟨v, h1, h2, -⟩ := h
  exact ⟨v, h1.1, h2.trans he⟩

/-! ### mass-metallicity relations -/

theorem lgmet_solar_abs : |Umzr.LGMET_SOLAR| ≤ 2 := by
  unfold Umzr.LGMET_SOLAR Jnp.log10
  rw [abs_le]
  constructor
  · rw [Real.le_logb_iff_rpow_le (by norm_num) (by norm_num), Real.rpow_neg (by norm_num), show (2:ℝ) = ((2:ℕ):ℝ) by norm_num, Real.rpow_natCast]; norm_num
  · refine (Real.logb_nonpos (by norm_num) (by norm_num) (by norm_num)).trans (by norm_num)

/-- the lookback time -/
theorem ne_lookback (hR : Wide R) {t : ℝ} (ht : |t| ≤ 20) (T : ℝ) (hT : |T| ≤ 20) :
    Ny 6e-38 40 (Flt.sel (Gen.lt (Flt.lit T - Flt.lit t : Ranged R) (Flt.lit 0)) (Flt.lit 0) (Flt.lit T - Flt.lit t) : Ranged R) (if T - t < 0 then 0 else T - t) := by
  have h1 : Ny 6e-38 40 (Flt.lit T - Flt.lit t : Ranged R) (T - t) := (ne_lit hR hT (e := 1.2e-38)).sub hR (ne_lit hR ht (e := 1.2e-38))
  exact h1.clamp

theorem C165_umzr (hR : Wide R) {logsm t : ℝ} {p : Umzr.MZRParams} (hm : |logsm| ≤ 20) (ht : |t| ≤ 20) (hp : ∀ i, |p.toArray i| ≤ 20) :
    Close (Gen.umzr_model (Flt.lit logsm : Ranged R) (Flt.lit t) (fun i => Flt.lit (p.toArray i))) (Umzr.mzr_model logsm t p) := by
  have l : ∀ {x : ℝ}, |x| ≤ 20 → Ny 1.2e-38 20 (Flt.lit x : Ranged R) x := fun h => ne_lit hR h
  have l0 : ∀ {x : ℝ}, |x| ≤ 20 → Ny 6e-38 40 (Flt.lit x : Ranged R) x := fun h => (l h).mono (by norm_num) (by norm_num)
  -- today's relation
  have a1 := ne_sig_slope hR (f := 1e-34) (S := 60) (g := 1e-32) (C := 3000) (l hm) (l (by unfold Umzr.MZR_T0_XTP; norm_num : |Umzr.MZR_T0_XTP| ≤ 20)) (l (hp 0)) (l (hp 1)) (l (hp 2)) (l (hp 3)) (l (hp 4))
  have a2 : Ny 1.1e-32 3002 (Gen.umzr_model_t0 _ _ _ _ _ _) _ := a1.add hR (ne_lit hR lgmet_solar_abs (e := 1.2e-38))
  -- evolution
  have b1 := ne_lookback hR ht Umzr.MZR_EVOL_T0 (by unfold Umzr.MZR_EVOL_T0; norm_num)
  have prod : ∀ i j, Ny 1e-35 420 (Flt.lit (p.toArray i) + Flt.lit (p.toArray j) * Flt.lit logsm : Ranged R) (p.toArray i + p.toArray j * logsm) := fun i j =>
    (l (hp i)).add hR (((l (hp j)).mul hR (l hm) : Ny 1e-36 400 _ _))
  have hT : Ny 1.2e-38 20 (Flt.lit Umzr.TLOOK_C : Ranged R) Umzr.TLOOK_C := l (by unfold Umzr.TLOOK_C; norm_num)
  have b2 : Ny 1e-34 420 _ _ := (prod 5 6).div hR (c := 1) hT (by unfold Umzr.TLOOK_C; norm_num)
  have b3 := ne_sig_slope hR (e := 1e-34) (D := 40) (Y := 420) (K' := 20) (H := 420) (f := 1e-27) (S := 1260) (g := 1e-23) (C := 1e6)
    (b1.mono (by norm_num) (by norm_num)) ((l (by unfold Umzr.MZR_DT_XTP; norm_num : |Umzr.MZR_DT_XTP| ≤ 20)).mono (by norm_num) (by norm_num))
    ((prod 5 6).mono (by norm_num) (by norm_num)) (hT.mono (by norm_num) (by norm_num)) ((l (by unfold Umzr.MZR_EVOL_K; norm_num : |Umzr.MZR_EVOL_K| ≤ 20)).mono (by norm_num) (by norm_num))
    b2 ((prod 7 8).mono (by norm_num) (by norm_num))
  have b4 := b3.clamp_pos
  have := a2.add hR b4 (g := 1e-22) (C := 1e7)
  exact ne_close this

/-- the parameters considered for the relation of `mzr.py` -/
structure MzrRangeBox (y0 x0 k slope_lo slope_hi c0 c1 tc d0 d1 : ℝ) : Prop where
  h0 : |y0| ≤ 20
  h1 : |x0| ≤ 20
  h2 : |k| ≤ 20
  h3 : |slope_lo| ≤ 20
  h4 : |slope_hi| ≤ 20
  h5 : |c0| ≤ 20
  h6 : |c1| ≤ 20
  h7 : 0.1 ≤ tc ∧ tc ≤ 20
  h8 : |d0| ≤ 20
  h9 : |d1| ≤ 20

theorem C165_mzr (hR : Wide R) {logsm t y0 x0 k slope_lo slope_hi c0 c1 tc d0 d1 : ℝ} (hm : |logsm| ≤ 20) (ht : |t| ≤ 20) (hp : MzrRangeBox y0 x0 k slope_lo slope_hi c0 c1 tc d0 d1) :
    Close (Gen.mzr_model (Flt.lit logsm : Ranged R) (Flt.lit t) (Flt.lit y0) (Flt.lit x0) (Flt.lit k) (Flt.lit slope_lo) (Flt.lit slope_hi) (Flt.lit c0) (Flt.lit c1) (Flt.lit tc)
      (Flt.lit d0) (Flt.lit d1)) (Mzr.mzr_model logsm t y0 x0 k slope_lo slope_hi c0 c1 tc d0 d1) := by
  have l : ∀ {x : ℝ}, |x| ≤ 20 → Ny 1.2e-38 20 (Flt.lit x : Ranged R) x := fun h => ne_lit hR h
  have a1 := ne_sig_slope hR (f := 1e-34) (S := 60) (g := 1e-32) (C := 3000) (l hm) (l hp.h1) (l hp.h0) (l hp.h1) (l hp.h2) (l hp.h3) (l hp.h4)
  have a2 : Ny 1.1e-32 3002 (Gen.mzr_model_t0 _ _ _ _ _ _) _ := a1.add hR (ne_lit hR (show |Mzr.LGMET_SOLAR| ≤ 2 from lgmet_solar_abs) (e := 1.2e-38))
  have b1 := ne_lookback hR ht Mzr.MZR_EVOL_T0 (by unfold Mzr.MZR_EVOL_T0; norm_num)
  have prod : ∀ {u w : ℝ}, |u| ≤ 20 → |w| ≤ 20 → Ny 1e-35 420 (Flt.lit u + Flt.lit w * Flt.lit logsm : Ranged R) (u + w * logsm) := fun hu hw =>
    (l hu).add hR (((l hw).mul hR (l hm) : Ny 1e-36 400 _ _))
  have htc : |tc| ≤ 20 := by rw [abs_le]; have := hp.h7; constructor <;> norm_num at * <;> linarith
  have hT : Ny 1e-35 20 (Flt.lit tc + Flt.lit 0 : Ranged R) (tc + 0) := by
    have h0 : Ny 0 0 (Flt.lit 0 : Ranged R) 0 := is_lit0.ne (by simp) le_rfl
    exact (l htc).add hR h0
  have b2 : Ny 1e-30 4200 _ _ := (prod hp.h5 hp.h6).div hR (c := 0.1) hT (by rw [add_zero]; exact hp.h7.1.trans (le_abs_self _))
  have b3 := ne_sig_slope hR (e := 1e-30) (D := 40) (Y := 420) (K' := 20) (H := 4200) (f := 1e-23) (S := 12600) (g := 8.1e-21) (C := 1e7)
    (b1.mono (by norm_num) (by norm_num)) (hT.mono (by norm_num) (by norm_num))
    ((prod hp.h5 hp.h6).mono (by norm_num) (by norm_num)) (hT.mono (by norm_num) (by norm_num)) ((l (by unfold Mzr.MZR_EVOL_K; norm_num : |Mzr.MZR_EVOL_K| ≤ 20)).mono (by norm_num) (by norm_num))
    b2 ((prod hp.h8 hp.h9).mono (by norm_num) (by norm_num))
  have b4 := b3.clamp_pos
  have := a2.add hR b4 (g := 9e-21) (C := 1e8)
  exact ne_close this

/-! ### stellar returns -/

theorem ten_le {y U : ℝ} {m : ℕ} (h : y ≤ m) (hU : (10:ℝ) ^ m ≤ U) : (10:ℝ) ^ y ≤ U := by
  refine (Real.rpow_le_rpow_of_exponent_le (by norm_num) h).trans ?_
  rwa [Real.rpow_natCast]

/-- the parameters considered for the mass of stellar remnants -/
structure RemnantRangeBox (x : ℝ) (p : RemnantMass.Params) : Prop where
  hx : 5 ≤ x ∧ x ≤ 11
  ha : |p.a| ≤ 2
  hb : 5 ≤ p.b ∧ p.b ≤ 11
  hk : |p.lgk1| ≤ 2
  hd : 0 ≤ p.d ∧ p.d ≤ 1.5
  he : 0 ≤ p.e ∧ p.e ≤ 1.5

theorem sigmoid_between {x x0 k lo hi U : ℝ} (h0 : 0 ≤ lo) (h1 : 0 ≤ hi) (h2 : lo ≤ U) (h3 : hi ≤ U) : 0 ≤ Utils.sigmoid x x0 k lo hi ∧ Utils.sigmoid x x0 k lo hi ≤ U := by
  unfold Utils.sigmoid
  have p := Real.exp_pos (-(k * (x - x0)))
  have q0 : 0 ≤ Jnp.sigmoid (k * (x - x0)) := by unfold Jnp.sigmoid; positivity
  have q1 : Jnp.sigmoid (k * (x - x0)) ≤ 1 := (le_abs_self _).trans (logistic_abs _)
  dsimp only
  constructor <;> nlinarith

theorem C165_remnant_mass (hR : Wide R) {x : ℝ} {p : RemnantMass.Params} (hp : RemnantRangeBox x p) :
    Close (Gen.remnant_mass (Flt.lit x : Ranged R) (Flt.lit p.a) (Flt.lit p.b) (Flt.lit p.lgk1) (Flt.lit p.d) (Flt.lit p.e)) (RemnantMass.remnant_mass x p) := by
  have l : ∀ {x : ℝ}, 0 ≤ x ∧ x ≤ 11 → Ny 1.2e-38 11 (Flt.lit x : Ranged R) x := fun h => ne_lit hR (by rw [abs_of_nonneg h.1]; exact h.2)
  have hx := l ⟨by linarith [hp.hx.1], hp.hx.2⟩
  have hb := l ⟨by linarith [hp.hb.1], hp.hb.2⟩
  have hd : Ny 1.2e-38 1.5 (Flt.lit p.d : Ranged R) p.d := ne_lit hR (by rw [abs_of_nonneg hp.hd.1]; exact hp.hd.2)
  have he : Ny 1.2e-38 1.5 (Flt.lit p.e : Ranged R) p.e := ne_lit hR (by rw [abs_of_nonneg hp.he.1]; exact hp.he.2)
  have ha : Ny 1.2e-38 2 (Flt.lit p.a : Ranged R) p.a := ne_lit hR hp.ha
  have hk : Ny 1e-35 100 (Flt.exp10 (Flt.lit p.lgk1) : Ranged R) ((10:ℝ) ^ p.lgk1) :=
    (ne_lit hR hp.hk (e := 1.2e-38)).exp10 hR (ten_le (m := 2) (by push_cast; exact (abs_le.1 hp.hk).2) (by norm_num))
  have c : ∀ {B : ℝ} {a : Ranged R} {y : ℝ}, Ny 1.2e-38 B a y → Ny 1e-35 B a y := fun h => h.mono (by norm_num) le_rfl
  have h1 := ne_sig_slope hR (f := 4e-32) (S := 4.5) (g := 1e-30) (C := 200) (c hx) (c hb) (c ha) (c hb) hk (c hd) (c he)
  have hs := sigmoid_between (x := x) (x0 := p.b) (k := (10:ℝ) ^ p.lgk1) hp.hd.1 hp.he.1 hp.hd.2 hp.he.2
  have hv : Utils.sig_slope x p.b p.a p.b ((10:ℝ) ^ p.lgk1) p.d p.e ≤ (11:ℕ) := by
    show p.a + Utils.sigmoid x p.b ((10:ℝ) ^ p.lgk1) p.d p.e * (x - p.b) ≤ _
    have := (abs_le.1 hp.ha).2
    have h6 : x - p.b ≤ 6 := by linarith [hp.hx.2, hp.hb.1]
    have : Utils.sigmoid x p.b ((10:ℝ) ^ p.lgk1) p.d p.e * (x - p.b) ≤ 9 := by
      calc _ ≤ Utils.sigmoid x p.b ((10:ℝ) ^ p.lgk1) p.d p.e * 6 := mul_le_mul_of_nonneg_left h6 hs.1
        _ ≤ 1.5 * 6 := mul_le_mul_of_nonneg_right hs.2 (by norm_num)
        _ = 9 := by norm_num
    push_cast; linarith
  have h2 := h1.exp10 hR (U := 1e11) (g := 1e-18) (ten_le hv (by norm_num))
  exact ne_close h2

/-- the parameters considered for the returned mass -/
structure SurvivingRangeBox (x : ℝ) (p : SurvivingMstar.Params) : Prop where
  hx : |x| ≤ 20
  ha : |p.a| ≤ 20
  hb : |p.b| ≤ 20
  hk : |p.lgk1| ≤ 2
  hd : |p.d| ≤ 20
  he : |p.e| ≤ 20
  hf : |p.f| ≤ 20
  hk2 : |p.lgk2| ≤ 2
  hh : |p.h| ≤ 20

theorem C165_surviving_mstar (hR : Wide R) {x : ℝ} {p : SurvivingMstar.Params} (hp : SurvivingRangeBox x p) :
    Close (Gen.surviving_mstar (Flt.lit x : Ranged R) (Flt.lit p.a) (Flt.lit p.b) (Flt.lit p.lgk1) (Flt.lit p.d) (Flt.lit p.e) (Flt.lit p.f) (Flt.lit p.lgk2) (Flt.lit p.h))
      (SurvivingMstar.surviving_mstar x p) := by
  have l : ∀ {x : ℝ}, |x| ≤ 20 → Ny 1e-35 20 (Flt.lit x : Ranged R) x := fun h => ne_lit hR h
  have hk : ∀ {x : ℝ}, |x| ≤ 2 → Ny 1e-35 100 (Flt.exp10 (Flt.lit x) : Ranged R) ((10:ℝ) ^ x) := fun h =>
    (ne_lit hR h (e := 1.2e-38)).exp10 hR (ten_le (m := 2) (by push_cast; exact (abs_le.1 h).2) (by norm_num))
  have h1 := ne_sig_slope hR (f := 1e-30) (S := 60) (g := 1e-28) (C := 3000) (l hp.hx) (l hp.hb) (l hp.ha) (l hp.hb) (hk hp.hk) (l hp.hd) (l hp.he)
  have h2 := ne_sigmoid hR (e := 1e-28) (g := 1e-21) (C := 9000) ((l hp.hx).mono (by norm_num) le_rfl) ((l hp.hf).mono (by norm_num) le_rfl)
    ((hk hp.hk2).mono (by norm_num) le_rfl) ((l hp.hh).mono (by norm_num) (by norm_num : (20:ℝ) ≤ 3000)) h1
  have h3 := (ne_lit hR (B := 1) (e := 1.2e-38) (y := 1) (by norm_num)).sub hR h2 (g := 2e-21) (C := 9001)
  exact ne_close h3

/-! ### dust -/

/-- the wavelengths considered, in micron -/
def MicronRangeBox (w : ℝ) : Prop := 0.01 ≤ w ∧ w ≤ 50

theorem is_pos (hR : Wide R) {w : ℝ} (h0 : 0.0001 ≤ w) (h1 : w ≤ 10000) : Is (Flt.lit w : Ranged R) w := hR.lit (by norm_num at *; linarith) (by norm_num at *; linarith)

theorem ne_inv (hR : Wide R) {w : ℝ} (hw : MicronRangeBox w) : Ny 2e-38 100 (Flt.lit 1 / Flt.lit w : Ranged R) (1 / w) := by
  have h1 : Ny 0 1 (Flt.lit 1 : Ranged R) 1 := (is_pos hR (by norm_num) (by norm_num)).ne (by norm_num) le_rfl
  have h2 : Ny 0 100 (Flt.lit w : Ranged R) w :=
    (is_pos hR (by have := hw.1; norm_num at *; linarith) (by have := hw.2; norm_num at *; linarith)).ne (by rw [abs_of_nonneg (by have := hw.1; norm_num at *; linarith)]; have := hw.2; linarith) le_rfl
  exact h1.div hR h2 (c := 0.01) (hw.1.trans (le_abs_self _))

theorem ne_calzetti (hR : Wide R) {w : ℝ} (hw : MicronRangeBox w) : Ny 1e-31 50000 (Gen.calzetti00_k_lambda (Flt.lit w : Ranged R)) (Dust.calzetti00_k_lambda w) := by
  have y := ne_inv hR hw
  have l : ∀ {x : ℝ}, |x| ≤ 6 → Ny 1.2e-38 6 (Flt.lit x : Ranged R) x := fun h => ne_lit hR h
  have hRV : Ny 1.2e-38 6 (Flt.lit Dust.RV_C00 : Ranged R) Dust.RV_C00 := l (by unfold Dust.RV_C00; norm_num)
  have y2 : Ny 1e-35 1e4 _ _ := ne_sq hR y
  have y3 := ne_cube hR y (f := 1e-35) (B := 1e4) (g := 1e-32) (C := 1e6)
  have a1 := (ne_lit hR (B := 1.509) (e := 1.2e-38) (y := 1.509) (by norm_num)).mul hR y (g := 1e-34) (C := 160)
  have a2 := (ne_lit hR (B := 0.198) (e := 1.2e-38) (y := 0.198) (by norm_num)).mul hR y2 (g := 1e-33) (C := 2000)
  have a3 := (ne_lit hR (B := 0.011) (e := 1.2e-38) (y := 0.011) (by norm_num)).mul hR y3 (g := 1.4e-32) (C := 11000)
  have a0 := (ne_lit hR (B := 3) (e := 1.2e-38) (y := 2.156) (by norm_num)).neg
  have b1 := ((a0.add hR a1 (g := 2e-34) (C := 200)).sub hR a2 (g := 2e-33) (C := 2200)).add hR a3 (g := 2e-32) (C := 13200)
  have k1 := ((ne_lit hR (B := 2.659) (e := 1.2e-38) (y := 2.659) (by norm_num)).mul hR b1 (g := 9e-32) (C := 49900)).add hR hRV (g := 1e-31) (C := 50000)
  have c0 := (ne_lit hR (B := 3) (e := 1.2e-38) (y := 1.857) (by norm_num)).neg
  have c1 := (ne_lit hR (B := 1.04) (e := 1.2e-38) (y := 1.040) (by norm_num)).mul hR y (g := 1e-34) (C := 110)
  have k2 := ((ne_lit hR (B := 2.659) (e := 1.2e-38) (y := 2.659) (by norm_num)).mul hR (c0.add hR c1 (g := 2e-34) (C := 200)) (g := 9e-32) (C := 49900)).add hR hRV (g := 1e-31) (C := 50000)
  have hw' : Is (Flt.lit w : Ranged R) w := is_pos hR (by have := hw.1; norm_num at *; linarith) (by have := hw.2; norm_num at *; linarith)
  exact ne_sel (lt_iffF hw' (is_pos hR (by norm_num) (by norm_num))) (fun _ => k1) (fun _ => k2)

theorem ne_leitherer (hR : Wide R) {w : ℝ} (hw : MicronRangeBox w) : Ny 1e-31 50000 (Gen.leitherer02_k_lambda (Flt.lit w : Ranged R)) (Dust.leitherer02_k_lambda w) := by
  have y := ne_inv hR hw
  have y2 : Ny 1e-35 1e4 _ _ := ne_sq hR y
  have y3 := ne_cube hR y (f := 1e-35) (B := 1e4) (g := 1e-32) (C := 1e6)
  have a1 := (ne_lit hR (B := 0.671) (e := 1.2e-38) (y := 0.671) (by norm_num)).mul hR y (g := 1e-34) (C := 160)
  have a2 := (ne_lit hR (B := 0.01) (e := 1.2e-38) (y := 9.218 * 1e-3) (by norm_num)).mul hR y2 (g := 1e-33) (C := 2000)
  have a3 := (ne_lit hR (B := 0.003) (e := 1.2e-38) (y := 2.620 * 1e-3) (by norm_num)).mul hR y3 (g := 1.4e-32) (C := 11000)
  have a0 := ne_lit hR (B := 6) (e := 1.2e-38) (y := 5.472) (by norm_num)
  exact a0.add hR ((a1.sub hR a2 (g := 2e-33) (C := 2200)).add hR a3 (g := 2e-32) (C := 13200)) (g := 1e-31) (C := 50000)

theorem ne_base (hR : Wide R) {w : ℝ} (hw : MicronRangeBox w) : Ny 1e-31 50000 (Gen.l02_below_c00_above (Flt.lit w : Ranged R) (Flt.lit 0.15)) (Dust.l02_below_c00_above w 0.15) := by
  have hw' : Is (Flt.lit w : Ranged R) w := is_pos hR (by have := hw.1; norm_num at *; linarith) (by have := hw.2; norm_num at *; linarith)
  exact ne_sel (lt_iffF (is_pos hR (by norm_num) (by norm_num)) hw') (fun _ => ne_calzetti hR hw) (fun _ => ne_leitherer hR hw)

/-- the shape parameters considered: slope up to 1.5, amplitude of the bump up to 10, position and width of the bump between 0.01 and 10 micron -/
structure BumpRangeBox (ampl slope x0 width : ℝ) : Prop where
  ha : |ampl| ≤ 10
  hs : |slope| ≤ 1.5
  hx : 0.01 ≤ x0 ∧ x0 ≤ 10
  hw : 0.01 ≤ width ∧ width ≤ 10

variable {w ampl slope x0 width av floor : ℝ}

theorem ne_bump (hR : Wide R) (hw : MicronRangeBox w) (hp : BumpRangeBox ampl slope x0 width) :
    Ny 1e-20 10 (Gen.drude_bump (Flt.lit w : Ranged R) (Flt.lit x0) (Flt.lit width) (Flt.lit ampl)) (Dust.drude_bump w x0 width ampl) := by
  have w0 : 0 < w := by have := hw.1; norm_num at *; linarith
  have g0 : 0 < width := by have := hp.hw.1; norm_num at *; linarith
  have x0' : 0 < x0 := by have := hp.hx.1; norm_num at *; linarith
  have hw' : Ny 1.2e-38 50 (Flt.lit w : Ranged R) w := ne_lit hR (by rw [abs_of_pos w0]; exact hw.2)
  have hx' : Ny 1.2e-38 10 (Flt.lit x0 : Ranged R) x0 := ne_lit hR (by rw [abs_of_pos x0']; exact hp.hx.2)
  have hg' : Ny 1.2e-38 10 (Flt.lit width : Ranged R) width := ne_lit hR (by rw [abs_of_pos g0]; exact hp.hw.2)
  have ha' : Ny 1.2e-38 10 (Flt.lit ampl : Ranged R) ampl := ne_lit hR hp.ha
  have w2 := ne_sq hR hw' (g := 2e-36) (C := 2500)
  have x2 := ne_sq hR hx' (g := 1e-36) (C := 100)
  have g2 := ne_sq hR hg' (g := 1e-36) (C := 100)
  have num := w2.mul hR g2 (g := 1e-32) (C := 1e6)
  have d1 := w2.sub hR x2 (g := 4e-36) (C := 3000)
  have d2 := ne_sq hR d1 (g := 1e-31) (C := 2e8)
  have den := d2.add hR num (g := 2e-31) (C := 3e8)
  have h1 : (0.01:ℝ) ^ 2 ≤ w ^ 2 := pow_le_pow_left₀ (by norm_num) hw.1 2
  have h2 : (0.01:ℝ) ^ 2 ≤ width ^ 2 := pow_le_pow_left₀ (by norm_num) hp.hw.1 2
  have h3 : (0.01:ℝ) ^ 2 * (0.01:ℝ) ^ 2 ≤ w ^ 2 * width ^ 2 := mul_le_mul h1 h2 (by norm_num) (by positivity)
  have h4 := sq_nonneg (w ^ 2 - x0 ^ 2)
  have hc : 1e-8 ≤ |(w ^ 2 - x0 ^ 2) ^ 2 + w ^ 2 * width ^ 2| := by
    refine le_trans ?_ (le_abs_self _)
    norm_num at *; linarith
  have hq : |w ^ 2 * width ^ 2| ≤ 1 * |(w ^ 2 - x0 ^ 2) ^ 2 + w ^ 2 * width ^ 2| := by
    rw [abs_of_nonneg (by positivity), abs_of_nonneg (by positivity)]; linarith
  have q := num.div_le hR den hc hq (g := 1e-22) (C := 1)
  exact ha'.mul hR q

theorem ne_power (hR : Wide R) (hw : MicronRangeBox w) (hs : |slope| ≤ 1.5) :
    Ny 1e-33 1000 (Gen.power_law_vband_norm (Flt.lit w : Ranged R) (Flt.lit slope) (Flt.lit 0.55)) (Dust.power_law_vband_norm w slope) := by
  have w0 := hw.1; have w1 := hw.2
  have hx : Is (Flt.lit w / Flt.lit 0.55 : Ranged R) (w / 0.55) := by
    refine (is_pos hR (by norm_num at *; linarith) (by norm_num at *; linarith)).div (is_pos hR (by norm_num) (by norm_num)) (by norm_num) (Or.inr (hR.in_pos ?_ ?_))
    · norm_num at *; linarith
    · norm_num at *; linarith
  have h0 : 0.01 ≤ w / 0.55 := by norm_num at *; linarith
  have h1 : w / 0.55 ≤ 100 := by norm_num at *; linarith
  have hx0 : 0 < w / 0.55 := by norm_num at *; linarith
  have hU : (w / 0.55) ^ slope ≤ 1000 := by
    have hlog : |Real.logb 10 (w / 0.55)| ≤ 2 := by
      rw [abs_le]
      constructor
      · rw [Real.le_logb_iff_rpow_le (by norm_num) hx0, Real.rpow_neg (by norm_num), show (2:ℝ) = ((2:ℕ):ℝ) by norm_num, Real.rpow_natCast]; refine le_trans ?_ h0; norm_num
      · rw [Real.logb_le_iff_le_rpow (by norm_num) hx0, show (2:ℝ) = ((2:ℕ):ℝ) by norm_num, Real.rpow_natCast]; refine h1.trans ?_; norm_num
    have e : (w / 0.55) ^ slope = (10:ℝ) ^ (Real.logb 10 (w / 0.55) * slope) := by rw [Real.rpow_mul (by norm_num), Real.rpow_logb (by norm_num) (by norm_num) hx0]
    rw [e]
    refine ten_le (m := 3) ((le_abs_self _).trans ?_) (by norm_num)
    rw [abs_mul]
    refine (mul_le_mul hlog hs (abs_nonneg _) (by norm_num)).trans (by norm_num)
  exact (ne_lit hR hs (e := 1.2e-38)).rpow hR hx h0 h1 hU

theorem ne_noll (hR : Wide R) (hw : MicronRangeBox w) (hp : BumpRangeBox ampl slope x0 width) :
    Ny 1.1e-17 1e8 (Gen.noll09_k_lambda (Flt.lit w : Ranged R) (Flt.lit ampl) (Flt.lit slope) (Flt.lit x0) (Flt.lit width)) (Dust.noll09_k_lambda w ampl slope x0 width) :=
  (((ne_base hR hw).add hR (ne_bump hR hw hp) (g := 1.01e-20) (C := 50010)).mul hR (ne_power hR hw hp.hs) (g := 1.1e-17) (C := 1e8)).clamp

theorem ne_sbl (hR : Wide R) (hw : MicronRangeBox w) (hp : BumpRangeBox ampl slope x0 width) :
    Ny 1.1e-17 1e8 (Gen.sbl18_k_lambda (Flt.lit w : Ranged R) (Flt.lit ampl) (Flt.lit slope) (Flt.lit x0) (Flt.lit width)) (Dust.sbl18_k_lambda w ampl slope x0 width) :=
  (((ne_base hR hw).mul hR (ne_power hR hw hp.hs) (g := 1e-25) (C := 6e7)).add hR (ne_bump hR hw hp) (g := 1.1e-17) (C := 1e8)).clamp

/-- the transmitted fraction -/
theorem close_transmission (hR : Wide R) {k : Ranged R} {K : ℝ} (hk : Ny 1.1e-17 1e8 k K) (hav : |av| ≤ 20) (hf : |floor| ≤ 1) :
    Close (Gen.frac_transmission_from_k_lambda k (Flt.lit av) (Flt.lit floor)) (Dust.frac_transmission_from_k_lambda K av floor) := by
  have a1 := (ne_lit hR hav (e := 1.2e-38)).mul hR hk (g := 2.3e-16) (C := 2e9)
  have a2 := a1.div hR (ne_lit hR (y := Dust.RV_C00) (B := 5) (e := 1.2e-38) (by unfold Dust.RV_C00; norm_num)) (c := 4) (by unfold Dust.RV_C00; norm_num) (g := 1.2e-16) (C := 1e9)
  have a3 := a2.clamp
  have a4 := (ne_lit hR (y := 0.4) (B := 0.4) (e := 1.2e-38) (by norm_num)).neg.mul hR a3 (g := 5e-17) (C := 4e8)
  have hle : (10:ℝ) ^ (-0.4 * (if av * K / Dust.RV_C00 < 0 then 0 else av * K / Dust.RV_C00)) ≤ 1 := by
    refine ten_le (m := 0) ?_ (by norm_num)
    split_ifs with h
    · norm_num
    · push_cast; push Not at h; nlinarith
  have a5 := a4.exp10 hR hle (g := 2.6e-16)
  have l1 := ne_lit hR (y := 1) (B := 1) (e := 1.2e-38) (by norm_num)
  have lf := ne_lit hR hf (e := 1.2e-38)
  have a6 := (l1.sub hR lf (g := 4e-38) (C := 2)).mul hR a5 (g := 5.3e-16) (C := 2)
  exact ne_close (lf.add hR a6 (g := 5.4e-16) (C := 3))

theorem C165_dust_calzetti (hR : Wide R) (hw : MicronRangeBox w) (hav : |av| ≤ 20) (hf : |floor| ≤ 1) :
    Close (Gen.frac_transmission_from_k_lambda (Gen.calzetti00_k_lambda (Flt.lit w : Ranged R)) (Flt.lit av) (Flt.lit floor))
      (Dust.frac_transmission_from_k_lambda (Dust.calzetti00_k_lambda w) av floor) :=
  close_transmission hR ((ne_calzetti hR hw).mono (by norm_num) (by norm_num)) hav hf

theorem C165_dust_leitherer (hR : Wide R) (hw : MicronRangeBox w) (hav : |av| ≤ 20) (hf : |floor| ≤ 1) :
    Close (Gen.frac_transmission_from_k_lambda (Gen.leitherer02_k_lambda (Flt.lit w : Ranged R)) (Flt.lit av) (Flt.lit floor))
      (Dust.frac_transmission_from_k_lambda (Dust.leitherer02_k_lambda w) av floor) :=
  close_transmission hR ((ne_leitherer hR hw).mono (by norm_num) (by norm_num)) hav hf

theorem C165_dust_noll (hR : Wide R) (hw : MicronRangeBox w) (hp : BumpRangeBox ampl slope x0 width) (hav : |av| ≤ 20) (hf : |floor| ≤ 1) :
    Close (Gen.frac_transmission_from_k_lambda (Gen.noll09_k_lambda (Flt.lit w : Ranged R) (Flt.lit ampl) (Flt.lit slope) (Flt.lit x0) (Flt.lit width)) (Flt.lit av) (Flt.lit floor))
      (Dust.frac_transmission_from_k_lambda (Dust.noll09_k_lambda w ampl slope x0 width) av floor) :=
  close_transmission hR (ne_noll hR hw hp) hav hf

theorem C165_dust_sbl (hR : Wide R) (hw : MicronRangeBox w) (hp : BumpRangeBox ampl slope x0 width) (hav : |av| ≤ 20) (hf : |floor| ≤ 1) :
    Close (Gen.frac_transmission_from_k_lambda (Gen.sbl18_k_lambda (Flt.lit w : Ranged R) (Flt.lit ampl) (Flt.lit slope) (Flt.lit x0) (Flt.lit width)) (Flt.lit av) (Flt.lit floor))
      (Dust.frac_transmission_from_k_lambda (Dust.sbl18_k_lambda w ampl slope x0 width) av floor) :=
  close_transmission hR (ne_sbl hR hw hp) hav hf

/-! ### bursts -/

open Classical in
/-- the shape of the triweight kernel -/
noncomputable def twShape (z : ℝ) : ℝ := if z < -3 ∨ z > 3 then 0 else (1 - (z / 3) ^ 2) ^ 3

theorem twShape_eq (z : ℝ) : twShape z = (max 0 (1 - (z / 3) ^ 2)) ^ 3 := by
  unfold twShape
  split_ifs with h
  · have : 1 - (z / 3) ^ 2 ≤ 0 := by rcases h with h | h <;> nlinarith
    rw [max_eq_left this]; norm_num
  · push Not at h
    have : 0 ≤ 1 - (z / 3) ^ 2 := by nlinarith [h.1, h.2]
    rw [max_eq_right this]

theorem twShape_mem (z : ℝ) : 0 ≤ twShape z ∧ twShape z ≤ 1 := by
  rw [twShape_eq]
  have h0 : 0 ≤ max 0 (1 - (z / 3) ^ 2) := le_max_left _ _
  have h1 : max 0 (1 - (z / 3) ^ 2) ≤ 1 := max_le zero_le_one (by nlinarith [sq_nonneg (z / 3)])
  exact ⟨pow_nonneg h0 3, pow_le_one₀ h0 h1⟩

theorem twShape_clip (z : ℝ) : twShape (max (-3) (min 3 z)) = twShape z := by
  unfold twShape
  rcases lt_or_ge z (-3) with h | h
  · rw [min_eq_right (by linarith), max_eq_left h.le, if_pos (Or.inl h)]; norm_num
  · rcases lt_or_ge 3 z with h' | h'
    · rw [min_eq_left h'.le, max_eq_right (by norm_num), if_pos (Or.inr h')]; norm_num
    · rw [min_eq_right h', max_eq_right h]

theorem twShape_lip {v z e : ℝ} (h : |v - z| ≤ e) : |twShape v - twShape z| ≤ 2 * e := by
  have he0 := (abs_nonneg _).trans h
  rw [← twShape_clip v, ← twShape_clip z]
  have hc : ∀ u : ℝ, |max (-3) (min 3 u)| ≤ 3 := fun u => abs_le.2 ⟨le_max_left _ _, max_le (by norm_num) (min_le_left _ _)⟩
  have hd : |max (-3) (min 3 v) - max (-3) (min 3 z)| ≤ e := by
    rw [max_comm (-3) _, max_comm (-3) _, min_comm 3 _, min_comm 3 _]
    exact (abs_max_sub_max_le_abs _ _ _).trans ((abs_min_sub_min_le_max _ _ _ _).trans (by simpa using h))
  have a1 := hc v
  have a2 := hc z
  generalize max (-3) (min 3 v) = v at *
  generalize max (-3) (min 3 z) = z at *
  rw [twShape_eq, twShape_eq]
  set p := max 0 (1 - (v / 3) ^ 2) with hp
  set q := max 0 (1 - (z / 3) ^ 2) with hq
  have hp0 : 0 ≤ p := le_max_left _ _
  have hq0 : 0 ≤ q := le_max_left _ _
  have hp1 : p ≤ 1 := max_le zero_le_one (by nlinarith [sq_nonneg (v / 3)])
  have hq1 : q ≤ 1 := max_le zero_le_one (by nlinarith [sq_nonneg (z / 3)])
  have hv : |v + z| ≤ 6 := (abs_add_le _ _).trans (by linarith)
  have h1 : |p - q| ≤ 6 * e / 9 := by
    have := abs_max_sub_max_le_abs (1 - (v / 3) ^ 2) (1 - (z / 3) ^ 2) 0
    rw [max_comm _ 0, max_comm _ 0, ← hp, ← hq] at this
    refine this.trans ?_
    rw [show (1 - (v / 3) ^ 2) - (1 - (z / 3) ^ 2) = -((v + z) * (v - z)) / 9 by ring, abs_div, abs_neg, abs_mul, abs_of_pos (by norm_num : (0:ℝ) < 9)]
    exact div_le_div_of_nonneg_right (mul_le_mul hv hd (abs_nonneg _) (by norm_num)) (by norm_num)
  have h2 : |p ^ 3 - q ^ 3| ≤ |p - q| * 3 := by
    rw [show p ^ 3 - q ^ 3 = (p - q) * (p * p + p * q + q * q) by ring, abs_mul]
    refine mul_le_mul_of_nonneg_left ?_ (abs_nonneg _)
    rw [abs_of_nonneg (by positivity)]
    nlinarith [mul_le_one₀ hp1 hp0 hp1, mul_le_one₀ hp1 hq0 hq1, mul_le_one₀ hq1 hq0 hq1]
  linarith

theorem gauss_eq (x m h : ℝ) : Utils.triweight_gaussian x m h = 35 / 96 * twShape ((x - m) / h) / h := by
  unfold Utils.triweight_gaussian twShape
  dsimp only
  split_ifs <;> ring

/-- the triweight kernel of nearly known arguments -/
theorem ne_gauss (hR : Wide R) {x m h : Ranged R} {X M H : ℝ} (hx : Ny 1e-31 20 x X) (hm : Ny 3e-29 20 m M) (hh : Ny 3e-29 20 h H) (hH : 0.033 ≤ H) :
    Ny 2e-22 12 (Gen.triweight_gaussian x m h) (Utils.triweight_gaussian X M H) := by
  have hH0 : 0 < H := by norm_num at *; linarith
  have hz := (hx.sub hR hm (g := 4e-29) (C := 40)).div hR hh (c := 0.033) (by rw [abs_of_pos hH0]; exact hH) (g := 3e-24) (C := 1300)
  obtain ⟨v, hv, hd, hB⟩ := hz
  have h3 : Is (Flt.lit 3 : Ranged R) 3 := is_pos hR (by norm_num) (by norm_num)
  have hc : (Gen.lt ((x - m) / h) (-(Flt.lit 3)) ∨ Gen.lt (Flt.lit 3) ((x - m) / h)) ↔ (v < -3 ∨ v > 3) := or_congr (lt_iffF hv h3.neg) (lt_iffF h3 hv)
  have hlip := twShape_lip hd
  have hm0 := twShape_mem ((X - M) / H)
  -- the exact kernel at the two arguments
  have hdiff : |35 / 96 * twShape v / H - Utils.triweight_gaussian X M H| ≤ 1e-22 := by
    rw [gauss_eq, ← sub_div, ← mul_sub, abs_div, abs_mul, abs_of_pos hH0]
    refine (div_le_div₀ (by norm_num) (mul_le_mul_of_nonneg_left hlip (by norm_num)) (by norm_num) hH).trans ?_
    norm_num
  have hbd : |Utils.triweight_gaussian X M H| ≤ 12 := by
    rw [gauss_eq, abs_div, abs_mul, abs_of_pos hH0, abs_of_nonneg hm0.1]
    refine (div_le_div₀ (by norm_num) (mul_le_mul_of_nonneg_left hm0.2 (by norm_num)) (by norm_num) hH).trans ?_
    norm_num
  have key : Ny 1e-25 12 (Gen.triweight_gaussian x m h) (35 / 96 * twShape v / H) := by
    show Ny _ _ (Flt.sel (Gen.lt ((x - m) / h) (-(Flt.lit 3)) ∨ Gen.lt (Flt.lit 3) ((x - m) / h)) (Flt.lit 0)
      (Flt.lit 35 / Flt.lit 96 * Flt.ipow (Flt.lit 1 - Flt.ipow ((x - m) / h / Flt.lit 3) 2) 3 / h) : Ranged R) _
    by_cases k : v < -3 ∨ v > 3
    · rw [sel_pos (hc.2 k)]
      unfold twShape; rw [if_pos k, mul_zero, zero_div]
      exact is_lit0.ne (by norm_num) (by norm_num)
    · rw [sel_neg (fun h => k (hc.1 h))]
      have hv3 : |v| ≤ 3 := by push Not at k; exact abs_le.2 k
      have z3 := (hv.ne hv3 (e := 0) le_rfl).div hR (h3.ne (by norm_num : |(3:ℝ)| ≤ 3) (e := 0) le_rfl) (c := 3) (by norm_num) (g := 2e-38) (C := 1)
      have z4 := ne_sq hR z3 (g := 1e-37) (C := 1)
      have hi := is_pos hR (w := 1) (by norm_num) (by norm_num)
      have z5 := ((hi.ne (by norm_num : |(1:ℝ)| ≤ 1) (e := 0) le_rfl).sub hR z4 (g := 2e-37) (C := 2)).bound (C := 1) (by
        rw [abs_le] at hv3 ⊢; constructor <;> nlinarith [hv3.1, hv3.2])
      have z6 := ne_cube hR z5 (f := 1e-36) (B := 1) (g := 3e-36) (C := 1)
      have c1 := (ne_lit hR (y := 35) (B := 35) (e := 1.2e-38) (by norm_num)).div hR (ne_lit hR (y := 96) (B := 96) (e := 1.2e-38) (by norm_num)) (c := 96) (by norm_num) (g := 2e-38) (C := 0.365)
      unfold twShape; rw [if_neg k]
      exact (c1.mul hR z6 (g := 1e-35) (C := 0.365)).div hR hh (c := 0.033) (by rw [abs_of_pos hH0]; exact hH)
  obtain ⟨w, hw, hwd, -⟩ := key
  refine ⟨w, hw, (abs_sub_le _ _ _).trans ((add_le_add hwd hdiff).trans (by norm_num)), hbd⟩

/-- a sum of nearly known terms -/
theorem ny_sum (hR : Wide R) {e B C g : ℝ} {x : Fin n → Ranged R} {X : Fin n → ℝ} (h : ∀ i, Ny e B (x i) (X i)) (hn : n ≤ 1000) (hg : 1000 * e + 1000 * 1.2e-38 ≤ g := by norm_num)
    (hC : 1000 * B ≤ C := by norm_num) (he : e ≤ 1 := by norm_num) (hB : B ≤ 1e30 := by norm_num)
    (he0 : 0 ≤ e := by norm_num) (hB0 : 0 ≤ B := by norm_num) : Ny g C (Flt.sum x) (∑ i, X i) := by
  have hn' : (n : ℝ) ≤ 1000 := by exact_mod_cast hn
  choose v h1 h2 h3 using h
  have hv : ∀ i, |v i| ≤ B + 1 := fun i => by have := abs_sub_abs_le_abs_sub (v i) (X i); have := h2 i; have := h3 i; linarith
  have hs : ∑ i, |v i| ≤ n * (B + 1) := (Finset.sum_le_sum fun i _ => hv i).trans (le_of_eq (by rw [Finset.sum_const, Finset.card_univ, Fintype.card_fin, nsmul_eq_mul]))
  obtain ⟨S, hS, d, -⟩ := is_sum h1 (hs.trans ((mul_le_mul_of_nonneg_right hn' (by linarith)).trans (by have := hR.max; norm_num at *; linarith)))
  have e1 : |∑ i, v i - ∑ i, X i| ≤ n * e := by
    rw [← Finset.sum_sub_distrib]
    exact (Finset.abs_sum_le_sum_abs _ _).trans ((Finset.sum_le_sum fun i _ => h2 i).trans (le_of_eq (by rw [Finset.sum_const, Finset.card_univ, Fintype.card_fin, nsmul_eq_mul])))
  have e2 : |∑ i, X i| ≤ n * B := (Finset.abs_sum_le_sum_abs _ _).trans ((Finset.sum_le_sum fun i _ => h3 i).trans (le_of_eq (by rw [Finset.sum_const, Finset.card_univ, Fintype.card_fin, nsmul_eq_mul])))
  refine ⟨S, hS, (abs_sub_le _ _ _).trans ((add_le_add d e1).trans ?_), e2.trans ((mul_le_mul_of_nonneg_right hn' hB0).trans hC)⟩
  have t1 := mul_le_mul hn' hR.tiny R.tiny_pos.le (by norm_num)
  have t2 := mul_le_mul_of_nonneg_right hn' he0
  linarith

theorem gauss_nonneg {x m h : ℝ} (hh : 0 < h) : 0 ≤ Utils.triweight_gaussian x m h := by
  rw [gauss_eq]
  have := (twShape_mem ((x - m) / h)).1
  positivity

/-- the burst parameters considered: the fraction of stars in the burst is at most one, the burst lasts between 0.1 and 10 dex in age -/
structure BurstRangeBox (p : Diffburst.BurstParams) : Prop where
  fb : -20 ≤ p.lgfburst ∧ p.lgfburst ≤ 0
  peak : 0 ≤ p.lgyr_peak ∧ p.lgyr_peak ≤ 10
  width : 0.1 ≤ p.lgyr_max - p.lgyr_peak ∧ p.lgyr_max - p.lgyr_peak ≤ 10

/-- **Specification.**  Some age of the grid lies well inside the burst. -/
def BurstOnGrid (p : Diffburst.BurstParams) (lgage : Fin n → ℝ) : Prop := ∃ i, |lgage i + 9 - p.lgyr_peak| ≤ 0.8 * (p.lgyr_max - p.lgyr_peak)

variable {p : Diffburst.BurstParams} {sw lgage : Fin n → ℝ}

theorem ne_burst (hR : Wide R) {f pk mx : Ranged R} (hp : BurstRangeBox p) (hg : BurstOnGrid p lgage) (hn : n ≤ 1000) (ha : ∀ i, |lgage i| ≤ 10) (hs : ∀ i, |sw i| ≤ 1)
    (hf : Ny 1e-31 20 f p.lgfburst) (hpk : Ny 1e-31 10 pk p.lgyr_peak) (hmx : Ny 1e-29 20 mx p.lgyr_max) (i : Fin n) :
    Close (Gen.calc_bursty_age_weights f pk mx (fun i => Flt.lit (sw i)) (fun i => Flt.lit (lgage i)) i) (Diffburst.calc_bursty_age_weights p sw lgage i) := by
  obtain ⟨hw0, hw1⟩ := hp.width
  have h9 : ∀ i, Ny 1e-31 20 (Flt.lit (lgage i) + Flt.lit 9.0 : Ranged R) (lgage i + 9.0) := fun i =>
    (ne_lit hR (ha i) (e := 1.2e-38)).add hR (ne_lit hR (y := 9.0) (B := 10) (e := 1.2e-38) (by norm_num))
  have sup := (hmx.sub hR hpk (g := 1.1e-29) (C := 30)).bound (C := 10) (by rw [abs_of_nonneg (by norm_num at *; linarith)]; exact hw1)
  have mn := hpk.sub hR sup (g := 1.2e-29) (C := 20)
  have x0 := ((ne_lit hR (y := 0.5) (B := 0.5) (e := 1.2e-38) (by norm_num)).mul hR (mn.add hR hmx (g := 2.3e-29) (C := 40)) (g := 3e-29) (C := 20))
  have dl := (hmx.sub hR mn (g := 2.3e-29) (C := 40))
  have six : Ny 1.2e-38 6 (Flt.lit 6 : Ranged R) 6 := ne_lit hR (by norm_num)
  have h := dl.div hR six (c := 6) (by norm_num) (g := 3e-29) (C := 20)
  set X0 := 0.5 * (p.lgyr_peak - (p.lgyr_max - p.lgyr_peak) + p.lgyr_max) with hX0
  set H := (p.lgyr_max - (p.lgyr_peak - (p.lgyr_max - p.lgyr_peak))) / 6 with hH
  have eX : X0 = p.lgyr_peak := by rw [hX0]; ring
  have eH : H = (p.lgyr_max - p.lgyr_peak) / 3 := by rw [hH]; ring
  have hH0 : 0.033 ≤ H := by rw [eH]; norm_num at *; linarith
  have hH1 : H ≤ 3.34 := by rw [eH]; norm_num at *; linarith
  have hHp : 0 < H := by norm_num at *; linarith
  have T : ∀ i, Ny 2e-22 12 (Gen.triweight_gaussian (Flt.lit (lgage i) + Flt.lit 9.0 : Ranged R) _ _) (Utils.triweight_gaussian (lgage i + 9.0) X0 H) := fun i => ne_gauss hR (h9 i) x0 h hH0
  have hsum := ny_sum hR T hn (g := 3e-19) (C := 12000)
  -- the sum is not small
  have hpos : ∀ i, 0 ≤ Utils.triweight_gaussian (lgage i + 9.0) X0 H := fun i => gauss_nonneg hHp
  have hS : 0.005 ≤ ∑ i, Utils.triweight_gaussian (lgage i + 9.0) X0 H := by
    obtain ⟨k, hk⟩ := hg
    refine le_trans ?_ (Finset.single_le_sum (fun i _ => hpos i) (Finset.mem_univ k))
    rw [gauss_eq]
    have hz : |(lgage k + 9.0 - X0) / H| ≤ 2.4 := by
      rw [abs_div, abs_of_pos hHp, div_le_iff₀ hHp, eX, eH]
      norm_num at *; linarith
    have hsh : 0.0466 ≤ twShape ((lgage k + 9.0 - X0) / H) := by
      rw [twShape_eq]
      have : 0.36 ≤ max 0 (1 - ((lgage k + 9.0 - X0) / H / 3) ^ 2) := by
        refine le_max_of_le_right ?_
        rw [abs_le] at hz
        nlinarith [hz.1, hz.2]
      refine le_trans ?_ (pow_le_pow_left₀ (by norm_num) this 3)
      norm_num
    rw [le_div_iff₀ hHp]
    norm_num at *; linarith
  have hS0 : ¬ ∑ i, Utils.triweight_gaussian (lgage i + 9.0) X0 H ≤ 0 := by norm_num at *; linarith
  have hle1 : Utils.triweight_gaussian (lgage i + 9.0) X0 H ≤ ∑ i, Utils.triweight_gaussian (lgage i + 9.0) X0 H := Finset.single_le_sum (fun i _ => hpos i) (Finset.mem_univ i)
  have hsF : ¬ Gen.le (Flt.sum fun i => Gen.triweight_gaussian (Flt.lit (lgage i) + Flt.lit 9.0 : Ranged R) (Flt.lit 0.5 * (pk - (mx - pk) + mx)) ((mx - (pk - (mx - pk))) / Flt.lit 6)) (Flt.lit 0) := by
    obtain ⟨v, hv, hd, -⟩ := hsum
    rw [show Gen.le (Flt.sum fun i => Gen.triweight_gaussian (Flt.lit (lgage i) + Flt.lit 9.0 : Ranged R) (Flt.lit 0.5 * (pk - (mx - pk) + mx)) ((mx - (pk - (mx - pk))) / Flt.lit 6)) (Flt.lit 0) ↔ v ≤ 0 from
      hv.1.le_iff is_lit0.1]
    rw [abs_le] at hd
    norm_num at *; linarith
  have W : Ny 1.3e-16 1 (Gen.pureburst_age_weights_from_params (fun i => (Flt.lit (lgage i) + Flt.lit 9.0 : Ranged R)) pk mx i)
      (Diffburst.pureburst_age_weights_from_params (fun i => lgage i + 9.0) p.lgyr_peak p.lgyr_max i) := by
    unfold Gen.pureburst_age_weights_from_params Gen.zero_safe_normalize Diffburst.pureburst_age_weights_from_params Diffburst.zero_safe_normalize Jnp.sum
    dsimp only
    rw [sel_neg hsF, if_neg hS0]
    refine (T i).div_le hR hsum (c := 0.005) (D := 1) ?_ ?_
    · rw [abs_of_nonneg (Finset.sum_nonneg fun i _ => hpos i)]; exact hS
    · rw [one_mul, abs_of_nonneg (hpos i), abs_of_nonneg (Finset.sum_nonneg fun i _ => hpos i)]; exact hle1
  have F := hf.exp10 hR (U := 1) (g := 1e-30) (ten_le (m := 0) (by push_cast; exact hp.fb.2) (by norm_num))
  have o := ne_lit hR (y := 1) (B := 1) (e := 1.2e-38) (by norm_num)
  have A1 := F.mul hR W (g := 2e-16) (C := 1)
  have A2 := (o.sub hR F (g := 2e-30) (C := 2)).mul hR (ne_lit hR (hs i) (e := 1.2e-38)) (g := 1e-29) (C := 2)
  exact ne_close (A1.add hR A2 (g := 3e-16) (C := 3))

theorem C165_burst (hR : Wide R) (hp : BurstRangeBox p) (hg : BurstOnGrid p lgage) (hn : n ≤ 1000) (ha : ∀ i, |lgage i| ≤ 10) (hs : ∀ i, |sw i| ≤ 1) (i : Fin n) :
    Close (Gen.calc_bursty_age_weights (Flt.lit p.lgfburst : Ranged R) (Flt.lit p.lgyr_peak) (Flt.lit p.lgyr_max) (fun i => Flt.lit (sw i)) (fun i => Flt.lit (lgage i)) i)
      (Diffburst.calc_bursty_age_weights p sw lgage i) := by
  refine ne_burst hR hp hg hn ha hs (ne_lit hR ?_) (ne_lit hR ?_) (ne_lit hR ?_) i
  · rw [abs_le]; constructor <;> linarith [hp.fb.1, hp.fb.2]
  · rw [abs_le]; constructor <;> linarith [hp.peak.1, hp.peak.2]
  · have := hp.width; have := hp.peak
    rw [abs_le]; constructor <;> norm_num at * <;> linarith

theorem sigmoid_range {x x0 k lo hi : ℝ} (h : lo ≤ hi) : lo ≤ Utils.sigmoid x x0 k lo hi ∧ Utils.sigmoid x x0 k lo hi ≤ hi := by
  have q0 : 0 ≤ Jnp.sigmoid (k * (x - x0)) := by unfold Jnp.sigmoid; positivity
  have q1 : Jnp.sigmoid (k * (x - x0)) ≤ 1 := (le_abs_self _).trans (logistic_abs _)
  unfold Utils.sigmoid
  dsimp only
  constructor <;> nlinarith

/-- the bounded parameters are ordinary burst parameters -/
theorem burst_params_box (u : Diffburst.BurstUParams) : BurstRangeBox (Diffburst.get_params_from_u_params u) := by
  have hf : Diffburst.LGFBURST_MIN ≤ (Diffburst.get_params_from_u_params u).lgfburst ∧ (Diffburst.get_params_from_u_params u).lgfburst ≤ Diffburst.LGFBURST_MAX :=
    sigmoid_range (by unfold Diffburst.LGFBURST_MIN Diffburst.LGFBURST_MAX; norm_num)
  have hpk : Diffburst.LGYR_PEAK_MIN ≤ (Diffburst.get_params_from_u_params u).lgyr_peak ∧ (Diffburst.get_params_from_u_params u).lgyr_peak ≤ Diffburst.LGAGE_MAX - Diffburst.DLGAGE_MIN :=
    sigmoid_range (by unfold Diffburst.LGYR_PEAK_MIN Diffburst.LGAGE_MAX Diffburst.DLGAGE_MIN; norm_num)
  have hmx : (Diffburst.get_params_from_u_params u).lgyr_peak + Diffburst.DLGAGE_MIN ≤ (Diffburst.get_params_from_u_params u).lgyr_max ∧
      (Diffburst.get_params_from_u_params u).lgyr_max ≤ Diffburst.LGAGE_MAX := sigmoid_range (by have := hpk.2; linarith)
  unfold Diffburst.LGFBURST_MIN Diffburst.LGFBURST_MAX at hf
  unfold Diffburst.LGYR_PEAK_MIN Diffburst.LGAGE_MAX Diffburst.DLGAGE_MIN at hpk
  unfold Diffburst.LGAGE_MAX Diffburst.DLGAGE_MIN at hmx
  constructor <;> constructor <;> linarith [hf.1, hf.2, hpk.1, hpk.2, hmx.1, hmx.2]

theorem C165_burst_unbounded (hR : Wide R) {u : Diffburst.BurstUParams} (h1 : |u.u_lgfburst| ≤ 100) (h2 : |u.u_lgyr_peak| ≤ 100) (h3 : |u.u_lgyr_max| ≤ 100)
    (hg : BurstOnGrid (Diffburst.get_params_from_u_params u) lgage) (hn : n ≤ 1000) (ha : ∀ i, |lgage i| ≤ 10) (hs : ∀ i, |sw i| ≤ 1) (i : Fin n) :
    Close (Gen.calc_bursty_age_weights_from_u_params (Flt.lit u.u_lgfburst : Ranged R) (Flt.lit u.u_lgyr_peak) (Flt.lit u.u_lgyr_max) (fun i => Flt.lit (sw i)) (fun i => Flt.lit (lgage i)) i)
      (Diffburst.calc_bursty_age_weights_from_u_params u sw lgage i) := by
  have hb := burst_params_box u
  have l : ∀ {x B : ℝ}, |x| ≤ B → B ≤ 1e37 → Ny 1.2e-38 B (Flt.lit x : Ranged R) x := fun h hB => ne_lit hR h hB
  have f := ne_sigmoid hR (l h1 (by norm_num)) (l (show |Diffburst.LGFB_X0| ≤ 100 by unfold Diffburst.LGFB_X0; norm_num) (by norm_num))
    (l (show |Diffburst.LGFB_K| ≤ 0.1 by unfold Diffburst.LGFB_K; norm_num) (by norm_num)) (l (show |Diffburst.LGFBURST_MIN| ≤ 8 by unfold Diffburst.LGFBURST_MIN; norm_num) (by norm_num))
    (l (show |Diffburst.LGFBURST_MAX| ≤ 8 by unfold Diffburst.LGFBURST_MAX; norm_num) (by norm_num)) (g := 1e-31) (C := 24)
  have plo := l (show |Diffburst.LGYR_PEAK_MIN| ≤ 8 by unfold Diffburst.LGYR_PEAK_MIN; norm_num) (by norm_num)
  have phi := l (show |Diffburst.LGAGE_MAX - Diffburst.DLGAGE_MIN| ≤ 8 by unfold Diffburst.LGAGE_MAX Diffburst.DLGAGE_MIN; norm_num) (by norm_num)
  have hk := l (show |Diffburst.LGAGE_K| ≤ 0.1 by unfold Diffburst.LGAGE_K; norm_num) (by norm_num)
  have half := l (show |(0.5:ℝ)| ≤ 0.5 by norm_num) (by norm_num)
  have px := half.mul hR (phi.add hR plo (g := 4e-38) (C := 16)) (g := 3e-37) (C := 100)
  have up : ∀ {e B : ℝ} {a : Ranged R} {y : ℝ}, Ny 1.2e-38 B a y → 1.2e-38 ≤ e → Ny e B a y := fun h he => h.mono he le_rfl
  have pk := (ne_sigmoid hR (e := 3e-37) (up (l h2 (by norm_num)) (by norm_num)) px (up hk (by norm_num)) (up plo (by norm_num)) (up phi (by norm_num)) (g := 1.2e-33) (C := 24)).bound (C := 10)
    (by show |(Diffburst.get_params_from_u_params u).lgyr_peak| ≤ 10; rw [abs_le]; constructor <;> linarith [hb.peak.1, hb.peak.2])
  have mlo := pk.add hR (l (show |Diffburst.DLGAGE_MIN| ≤ 1 by unfold Diffburst.DLGAGE_MIN; norm_num) (by norm_num)) (g := 1.21e-33) (C := 11)
  have mhi := l (show |Diffburst.LGAGE_MAX| ≤ 11 by unfold Diffburst.LGAGE_MAX; norm_num) (by norm_num)
  have mx := half.mul hR (mhi.add hR mlo (g := 1.22e-33) (C := 22)) (g := 1.22e-33) (C := 100)
  have mm := (ne_sigmoid hR (e := 1.22e-33) (up (l h3 (by norm_num)) (by norm_num)) mx (up hk (by norm_num)) (mlo.mono (by norm_num) le_rfl) (up mhi (by norm_num)) (g := 6e-30) (C := 33))
  have mb := (mm.mono (g := 1e-29) (by norm_num) le_rfl).bound (C := 20)
    (by show |(Diffburst.get_params_from_u_params u).lgyr_max| ≤ 20; have := hb.width; rw [abs_le]; constructor <;> norm_num at * <;> linarith [hb.peak.1, hb.peak.2])
  have fb := f.bound (C := 20) (by show |(Diffburst.get_params_from_u_params u).lgfburst| ≤ 20; rw [abs_le]; constructor <;> linarith [hb.fb.1, hb.fb.2])
  exact ne_burst hR hb hg hn ha hs fb (pk.mono (by norm_num) le_rfl) mb i

/-! ### the statements apply to the defaults in single precision -/

example : Close (Gen.umzr_model (Flt.lit 10 : Ranged float32) (Flt.lit 13.8) (fun i => Flt.lit (Umzr.DEFAULT_MZR_PARAMS.toArray i))) (Umzr.mzr_model 10 13.8 Umzr.DEFAULT_MZR_PARAMS) :=
  C165_umzr wide32 (by norm_num) (by norm_num) fun i => by
    fin_cases i <;> simp [Umzr.DEFAULT_MZR_PARAMS, Umzr.MZRParams.toArray] <;> norm_num [abs_le]

example : Close (Gen.mzr_model (Flt.lit 10 : Ranged float32) (Flt.lit 13.8) (Flt.lit 0.05) (Flt.lit 10.5) (Flt.lit 1) (Flt.lit 0.4) (Flt.lit 0.1) (Flt.lit (-1.455)) (Flt.lit 0.13) (Flt.lit 8.44)
    (Flt.lit (-0.959)) (Flt.lit 0.067242)) (Mzr.mzr_model 10 13.8 0.05 10.5 1 0.4 0.1 (-1.455) 0.13 8.44 (-0.959) 0.067242) :=
  C165_mzr wide32 (by norm_num) (by norm_num) (by constructor <;> norm_num [abs_le])

example : Close (Gen.remnant_mass (Flt.lit 9 : Ranged float32) (Flt.lit (-1.42)) (Flt.lit 7) (Flt.lit 1) (Flt.lit 1.3) (Flt.lit 0.2)) (RemnantMass.remnant_mass 9) :=
  C165_remnant_mass wide32 (p := RemnantMass.DEFAULT_PARAMS) (by constructor <;> norm_num [RemnantMass.DEFAULT_PARAMS, abs_le])

example : Close (Gen.surviving_mstar (Flt.lit 9 : Ranged float32) (Flt.lit 0.225) (Flt.lit 8.0) (Flt.lit (-0.5)) (Flt.lit 0.145) (Flt.lit 0.08) (Flt.lit 6.5) (Flt.lit 0.7) (Flt.lit 0.005))
    (SurvivingMstar.surviving_mstar 9) :=
  C165_surviving_mstar wide32 (p := SurvivingMstar.DEFAULT_PARAMS) (by constructor <;> norm_num [SurvivingMstar.DEFAULT_PARAMS, abs_le])

example : Close (Gen.frac_transmission_from_k_lambda (Gen.calzetti00_k_lambda (Flt.lit 0.5 : Ranged float32)) (Flt.lit 1) (Flt.lit 0))
    (Dust.frac_transmission_from_k_lambda (Dust.calzetti00_k_lambda 0.5) 1 0) :=
  C165_dust_calzetti wide32 (by constructor <;> norm_num) (by norm_num) (by norm_num)
example : Close (Gen.frac_transmission_from_k_lambda (Gen.leitherer02_k_lambda (Flt.lit 0.1 : Ranged float32)) (Flt.lit 1) (Flt.lit 0))
    (Dust.frac_transmission_from_k_lambda (Dust.leitherer02_k_lambda 0.1) 1 0) :=
  C165_dust_leitherer wide32 (by constructor <;> norm_num) (by norm_num) (by norm_num)

theorem case_bump : BumpRangeBox 2 (-0.3) 0.2175 0.035 := by constructor <;> norm_num [abs_le]

example : Close (Gen.frac_transmission_from_k_lambda (Gen.noll09_k_lambda (Flt.lit 0.2 : Ranged float32) (Flt.lit 2) (Flt.lit (-0.3)) (Flt.lit 0.2175) (Flt.lit 0.035)) (Flt.lit 1) (Flt.lit 0.1))
    (Dust.frac_transmission_from_k_lambda (Dust.noll09_k_lambda 0.2 2 (-0.3) 0.2175 0.035) 1 0.1) :=
  C165_dust_noll wide32 (by constructor <;> norm_num) case_bump (by norm_num) (by norm_num)
example : Close (Gen.frac_transmission_from_k_lambda (Gen.sbl18_k_lambda (Flt.lit 0.2 : Ranged float32) (Flt.lit 2) (Flt.lit (-0.3)) (Flt.lit 0.2175) (Flt.lit 0.035)) (Flt.lit 1) (Flt.lit 0.1))
    (Dust.frac_transmission_from_k_lambda (Dust.sbl18_k_lambda 0.2 2 (-0.3) 0.2175 0.035) 1 0.1) :=
  C165_dust_sbl wide32 (by constructor <;> norm_num) case_bump (by norm_num) (by norm_num)

/-- ages from 1e5 yr to 1e10 yr -/
noncomputable def caseBurstAges : Fin 4 → ℝ := ![-4, -3, 0, 1]
noncomputable def caseBurstSmooth : Fin 4 → ℝ := ![0.1, 0.2, 0.3, 0.4]

theorem case_burst_box : BurstRangeBox Diffburst.DEFAULT_BURST_PARAMS := by constructor <;> norm_num [Diffburst.DEFAULT_BURST_PARAMS]
theorem case_burst_ages (i : Fin 4) : |caseBurstAges i| ≤ 10 := by fin_cases i <;> simp [caseBurstAges] <;> norm_num
theorem case_burst_smooth (i : Fin 4) : |caseBurstSmooth i| ≤ 1 := by fin_cases i <;> simp [caseBurstSmooth] <;> norm_num [abs_le]

example (i : Fin 4) : Close (Gen.calc_bursty_age_weights (Flt.lit (-3.0) : Ranged float32) (Flt.lit 5.5) (Flt.lit 7.0) (fun i => Flt.lit (caseBurstSmooth i)) (fun i => Flt.lit (caseBurstAges i)) i)
    (Diffburst.calc_bursty_age_weights Diffburst.DEFAULT_BURST_PARAMS caseBurstSmooth caseBurstAges i) :=
  C165_burst wide32 (p := Diffburst.DEFAULT_BURST_PARAMS) case_burst_box ⟨0, by norm_num [caseBurstAges, Diffburst.DEFAULT_BURST_PARAMS, abs_le]⟩ (by norm_num) case_burst_ages case_burst_smooth i

/-- the middle of the bounded ranges: a peak of 1e6.5 years -/
noncomputable def caseBurstU : Diffburst.BurstUParams := ⟨-2, 6.5, 8.25⟩
theorem case_burst_u : (Diffburst.get_params_from_u_params caseBurstU).lgyr_peak = 6.5 ∧ (Diffburst.get_params_from_u_params caseBurstU).lgyr_max = 8.25 := by
  have h : Diffburst.get_lgyr_peak_from_u_lgyr_peak 6.5 = 6.5 := by
    norm_num [Diffburst.get_lgyr_peak_from_u_lgyr_peak, Utils.sigmoid, Jnp.sigmoid, Diffburst.LGYR_PEAK_MIN, Diffburst.LGAGE_MAX, Diffburst.DLGAGE_MIN, Diffburst.LGAGE_K]
  refine ⟨h, ?_⟩
  show Diffburst.get_lgyr_max_from_lgyr_peak (Diffburst.get_lgyr_peak_from_u_lgyr_peak 6.5) 8.25 = 8.25
  rw [h]
  norm_num [Diffburst.get_lgyr_max_from_lgyr_peak, Utils.sigmoid, Jnp.sigmoid, Diffburst.LGAGE_MAX, Diffburst.DLGAGE_MIN, Diffburst.LGAGE_K]

example (i : Fin 4) : Close (Gen.calc_bursty_age_weights_from_u_params (Flt.lit (-2) : Ranged float32) (Flt.lit 6.5) (Flt.lit 8.25) (fun i => Flt.lit (caseBurstSmooth i))
    (fun i => Flt.lit (caseBurstAges i)) i) (Diffburst.calc_bursty_age_weights_from_u_params caseBurstU caseBurstSmooth caseBurstAges i) :=
  C165_burst_unbounded wide32 (u := caseBurstU) (by norm_num [caseBurstU]) (by norm_num [caseBurstU]) (by norm_num [caseBurstU])
    ⟨1, by rw [case_burst_u.1, case_burst_u.2]; norm_num [caseBurstAges, abs_le]⟩ (by norm_num) case_burst_ages case_burst_smooth i

end Dsps.Props
