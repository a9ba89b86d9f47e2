import Verif.Props.RangeMag
import Verif.Props.RangeCosmo
import Verif.Props.Photometry

/-! Property C163, observed magnitudes.  The programs are run on floats with the exponent range of a format (`Verif/Range.lean`). -/
namespace Dsps.Props
open XF Range Dsps.Lemmas Spec
open Dsps.Photometry (AB0)

variable {R : Range} {n m : ℕ} {Om0 w0 wa h z : ℝ}

theorem inf_add {a b : Ranged R} {B : ℝ} (ha : a.x = inf false) (hb : Bd B b) : (a + b).x = inf false := by
  obtain ⟨y, hy, -⟩ := hb
  show R.fit (a.x + b.x) = _
  rw [ha]
  rcases hy with e | ⟨e, -⟩ <;> rw [e] <;> rfl

theorem dimming_bd (hR : Wide R) (H : OrdinaryCosmo Om0 w0 wa h) (h0 : 1e-6 ≤ z) (h1 : z ≤ 1000) :
    Bd 225 (Gen.cosmological_dimming (Flt.lit z) (Flt.lit Om0) (Flt.lit w0) (Flt.lit wa) (Flt.lit h) : Ranged R) := by
  have hM := hR.max
  have hd := (C163_distances hR H h0 h1).2.2.2
  have hz : Is (Flt.lit z : Ranged R) z := hR.lit (by linarith) (by linarith)
  have hone : Is (Flt.lit 1 : Ranged R) 1 := hR.lit (by norm_num) (by norm_num)
  obtain ⟨y, hy, y0, y1⟩ : Btn 1 1001 (Flt.lit 1 + Flt.lit z : Ranged R) :=
    (hone.btn.add (hz.btn.mono (lo' := 0) (by linarith) h1) (hR.span (Or.inr (by norm_num)) (by norm_num))).mono (by norm_num) (by norm_num)
  have hy0 : 0 < y := by linarith
  have hl : Bd 10 (Flt.log10 (Flt.lit 1 + Flt.lit z) : Ranged R) := by
    refine bd_fit (y := Real.logb 10 y) ?_ ?_ (by linarith)
    · show Rep (XF.log10 _) _
      rw [hy.log10 hy0]; exact Rep.fin _
    · rw [abs_of_nonneg (Real.logb_nonneg (by norm_num) y0), Real.logb_le_iff_le_rpow (by norm_num) hy0, show (10:ℝ) ^ (10:ℝ) = (10:ℝ) ^ (10:ℕ) by
        rw [← Real.rpow_natCast]; norm_num]
      refine y1.trans (by norm_num)
  have h25 : Bd 2.5 (Flt.lit 2.5 : Ranged R) := (hR.lit (by norm_num) (by norm_num)).bd.mono (by norm_num)
  exact (hd.sub (h25.mul hl (by linarith)) (by linarith)).mono (by norm_num)

section
variable [Jnp.Dtype] {wave lum X : Fin (n + 2) → ℝ} {fw ft : Fin (m + 1) → ℝ} {c : Fin m}

/-- the redshifted grid -/
theorem stretch_is (hR : Wide R) (hX : WaveGrid R wave) (hz0 : 1e-6 ≤ z) (hz1 : z ≤ 1000) (hlast : wave (Fin.last (n + 1)) ≤ 1e30) :
    WaveGrid R (fun j => wave j * (1 + z)) ∧ ∀ j, Is (Flt.lit (wave j) * (Flt.lit 1 + Flt.lit z) : Ranged R) (wave j * (1 + z)) := by
  have hM := hR.max
  have ht := R.tiny_pos
  have hz : Is (Flt.lit z : Ranged R) z := hR.lit (by linarith) (by linarith)
  have hone : Is (Flt.lit 1 : Ranged R) 1 := hR.lit (by norm_num) (by norm_num)
  have hzp : Is (Flt.lit 1 + Flt.lit z : Ranged R) (1 + z) := hone.add hz (Or.inr (hR.in_pos (by linarith) (by linarith)))
  have hw : ∀ j, 0 < wave j := fun j => ht.trans_le (hX.first.trans (hX.mono (Fin.zero_le _)))
  have hG : WaveGrid R (fun j => wave j * (1 + z)) :=
    { mono := fun i j hij => mul_le_mul_of_nonneg_right (hX.mono hij) (by linarith)
      first := hX.first.trans (le_mul_of_one_le_right (hw 0).le (by linarith))
      last := by
        have : wave (Fin.last (n + 1)) * (1 + z) ≤ 1e30 * 1001 := mul_le_mul hlast (by linarith) (by linarith) (by norm_num)
        refine this.trans (le_trans (by norm_num) hM)
      resolved := fun i => by
        have h := hX.resolved i
        have hp : 0 < wave i.succ - wave i.castSucc := ht.trans_le h.2
        have : wave i.succ - wave i.castSucc ≤ wave i.succ * (1 + z) - wave i.castSucc * (1 + z) := by nlinarith
        exact ⟨h.1.trans_le this, h.2.trans this⟩ }
  exact ⟨hG, fun j => (is_lit (Or.inr (hX.in j))).mul hzp (Or.inr (hG.in j))⟩

/-- C163: an observed magnitude is finite too, at every redshift between 1e-6 and 1000 and for ordinary cosmological parameters, in single precision. -/
theorem C163_obs_mag_single (hX : WaveGrid float32 wave) (hlast : wave (Fin.last (n + 1)) ≤ 1e30) (hl : ∀ j, 1e-20 ≤ lum j ∧ lum j ≤ 1e3)
    (hb : Band fw ft 100 1e7 1e-3 1e-2 c) (H : OrdinaryCosmo Om0 w0 wa h) (hz0 : 1e-6 ≤ z) (hz1 : z ≤ 1000)
    (h0 : wave 0 * (1 + z) ≤ fw c.castSucc) (h1 : fw c.castSucc ≤ wave (Fin.last (n + 1)) * (1 + z)) :
    Bd 315 (Gen.calc_obs_mag (fun j => Flt.lit (wave j)) (fun j => Flt.lit (lum j)) (fun i => Flt.lit (fw i)) (fun i => Flt.lit (ft i))
      (Flt.lit z) (Flt.lit Om0) (Flt.lit w0) (Flt.lit wa) (Flt.lit h) : Ranged float32) := by
  obtain ⟨hG, hp⟩ := stretch_is wide32 hX hz0 hz1 hlast
  have hR : BandFits float32 100 1e7 1e-3 1e-2 1e-20 1e3 := by
    constructor <;> first | apply tiny32 | apply max32 | skip
    all_goals norm_num
  have hs : Span float32 1e-20 1e3 := ⟨Or.inr (tiny32 (by norm_num)), max32 (by norm_num)⟩
  have hfw := fun i => hb.is hR.fwlo hR.fwhi i
  have hL := fun i => lum_btn hG hp hl hs (hfw i)
  have hF := flux_btn hb hR (fun i => (hL i).1) ((hL c.castSucc).2 h0 h1)
  have := mag_bd (A := 36) hF (ab0_btn hb ab0_fits32 ab0_in32) (by norm_num) (by norm_num [AB0]) (tiny32 (by norm_num [AB0])) (max32 (by norm_num [AB0]))
    (by rw [Real.rpow_neg (by norm_num), show (36:ℝ) = ((36:ℕ):ℝ) by norm_num, Real.rpow_natCast]; norm_num [AB0])
    (by rw [show (36:ℝ) = ((36:ℕ):ℝ) by norm_num, Real.rpow_natCast]; norm_num [AB0]) (max32 (by norm_num)) (max32 (by norm_num))
  exact (this.add (dimming_bd wide32 H hz0 hz1) (max32 (by norm_num))).mono (by norm_num)

/-- C163: in double precision for spectra between 1e-200 and 1e100 Lsun/Hz. -/
theorem C163_obs_mag_double (hX : WaveGrid float64 wave) (hlast : wave (Fin.last (n + 1)) ≤ 1e30) (hl : ∀ j, (10:ℝ) ^ (-200:ℤ) ≤ lum j ∧ lum j ≤ (10:ℝ) ^ (100:ℤ))
    (hb : Band fw ft 100 1e7 1e-3 1e-2 c) (H : OrdinaryCosmo Om0 w0 wa h) (hz0 : 1e-6 ≤ z) (hz1 : z ≤ 1000)
    (h0 : wave 0 * (1 + z) ≤ fw c.castSucc) (h1 : fw c.castSucc ≤ wave (Fin.last (n + 1)) * (1 + z)) :
    Bd 800 (Gen.calc_obs_mag (fun j => Flt.lit (wave j)) (fun j => Flt.lit (lum j)) (fun i => Flt.lit (fw i)) (fun i => Flt.lit (ft i))
      (Flt.lit z) (Flt.lit Om0) (Flt.lit w0) (Flt.lit wa) (Flt.lit h) : Ranged float64) := by
  obtain ⟨hG, hp⟩ := stretch_is wide64 hX hz0 hz1 hlast
  have hR : BandFits float64 100 1e7 1e-3 1e-2 ((10:ℝ) ^ (-200:ℤ)) ((10:ℝ) ^ (100:ℤ)) := by
    constructor <;> first | apply tiny64 | apply max64 | skip
    all_goals norm_num
  have hs : Span float64 ((10:ℝ) ^ (-200:ℤ)) ((10:ℝ) ^ (100:ℤ)) := ⟨Or.inr (tiny64 (by norm_num)), max64 (by norm_num)⟩
  have hfw := fun i => hb.is hR.fwlo hR.fwhi i
  have hL := fun i => lum_btn hG hp hl hs (hfw i)
  have hF := flux_btn hb hR (fun i => (hL i).1) ((hL c.castSucc).2 h0 h1)
  have := mag_bd (A := 230) hF (ab0_btn hb ab0_fits64 ab0_in64) (by norm_num) (by norm_num [AB0]) (tiny64 (by norm_num [AB0])) (max64 (by norm_num [AB0]))
    (by rw [Real.rpow_neg (by norm_num), show (230:ℝ) = ((230:ℕ):ℝ) by norm_num, Real.rpow_natCast]; norm_num [AB0])
    (by rw [show (230:ℝ) = ((230:ℕ):ℝ) by norm_num, Real.rpow_natCast]; norm_num [AB0]) (max64 (by norm_num)) (max64 (by norm_num))
  exact (this.add (dimming_bd wide64 H hz0 hz1) (max64 (by norm_num))).mono (by norm_num)

/-- C163: and in single precision a spectrum that nowhere exceeds 1e-36 Lsun/Hz is observed at the magnitude `+inf`. -/
theorem C163_obs_mag_underflow (hX : WaveGrid float32 wave) (hlast : wave (Fin.last (n + 1)) ≤ 1e30) (hl : ∀ j, 0 ≤ lum j ∧ lum j ≤ 1e-36)
    (hb : Band fw ft 100 1e7 1e-3 1e-2 c) (H : OrdinaryCosmo Om0 w0 wa h) (hz0 : 1e-6 ≤ z) (hz1 : z ≤ 1000) :
    (Gen.calc_obs_mag (fun j => Flt.lit (wave j)) (fun j => Flt.lit (lum j)) (fun i => Flt.lit (fw i)) (fun i => Flt.lit (ft i))
      (Flt.lit z) (Flt.lit Om0) (Flt.lit w0) (Flt.lit wa) (Flt.lit h) : Ranged float32).x = inf false := by
  obtain ⟨hG, hp⟩ := stretch_is wide32 hX hz0 hz1 hlast
  have hs : Span float32 0 1e-36 := ⟨Or.inl rfl, max32 (by norm_num)⟩
  have hL := fun i => lum_btn hG hp hl hs (hb.is ab0_fits32.fwlo ab0_fits32.fwhi i)
  have hF := flux_zero hb ab0_fits32.fwlo ab0_fits32.fwhi ab0_fits32.fhalf (max32 (by norm_num)) (hi := 1e-36)
    (by show _ < (2⁻¹:ℝ) ^ 126; norm_num) (fun i => (hL i).1)
  have hm := mag_inf hF (ab0_btn hb ab0_fits32 ab0_in32) (by norm_num [AB0]) (max32 (by norm_num)) (tiny32 (by norm_num))
  exact inf_add hm (dimming_bd wide32 H hz0 hz1)

end

section
attribute [local instance] Jnp.Dtype.float32

theorem case_grid32 : WaveGrid (n := 1) float32 caseWave where
  mono := caseWave_mono.monotone
  first := tiny32 (by norm_num [caseWave])
  last := max32 (by norm_num [caseWave, Fin.last])
  resolved := fun i => by
    constructor
    · show (2:ℝ)⁻¹ ^ 46 < _; fin_cases i <;> simp [caseWave] <;> norm_num
    · apply tiny32; fin_cases i <;> simp [caseWave] <;> norm_num

theorem case_band : Band (m := 2) caseFW caseFT 100 1e7 1e-3 1e-2 1 where
  mono := case_good.1
  lo := fun i => by fin_cases i <;> norm_num [caseFW]
  hi := fun i => by fin_cases i <;> norm_num [caseFW]
  trans := fun i => by fin_cases i <;> norm_num [caseFT]
  cell := by simp [caseFW]; norm_num
  open_ := by simp [caseFT]; norm_num

theorem case_ordinary : OrdinaryCosmo 0.3 (-1) 0 0.7 :=
  ⟨⟨by norm_num, by norm_num⟩, by norm_num, by norm_num, by norm_num, ⟨by norm_num, by norm_num⟩⟩

/-- C163: this `+inf` is an artefact: the exact flux of such a spectrum is positive. -/
theorem C163_underflow_is_spurious : ∃ lum : Fin 3 → ℝ,
    (Gen.calc_rest_mag (n := 1) (m := 2) (fun j => Flt.lit (caseWave j)) (fun j => Flt.lit (lum j)) (fun i => Flt.lit (caseFW i)) (fun i => Flt.lit (caseFT i)) :
      Ranged float32).x = inf false ∧
    0 < Photometry.calc_rest_flux (n := 1) (m := 2) caseWave lum caseFW caseFT ∧
    |Photometry.calc_rest_mag (n := 1) (m := 2) caseWave lum caseFW caseFT| ≤ 60 := by
  have hf := (C40_ab_zero_point_rest (n := 1) (m := 2) caseWave_mono.monotone caseFW caseFT (c := 1e-24) case_ab.ne' case_cover)
  refine ⟨fun _ => 1e-24 * 1.13492e-13, C163_rest_mag_underflow case_grid32 (fun _ => ⟨by norm_num, by norm_num⟩) case_band, ?_, ?_⟩
  · rw [hf.1]; norm_num
  · rw [hf.2]
    have : Real.logb 10 (1e-24:ℝ) = -24 := by
      rw [show (1e-24:ℝ) = (10:ℝ) ^ (-24:ℝ) by rw [Real.rpow_neg (by norm_num), show (24:ℝ) = ((24:ℕ):ℝ) by norm_num, Real.rpow_natCast]; norm_num, Real.logb_rpow (by norm_num) (by norm_num)]
    rw [this]; norm_num

/-- C163 applied -/
example := C163_rest_mag_single case_grid32 (lum := ![1e-6, 1e-5, 1e-12]) (fun j => by fin_cases j <;> constructor <;> norm_num) case_band
  (case_cover _).1 (case_cover _).2
example := C163_obs_mag_single case_grid32 (by norm_num [caseWave, Fin.last]) (lum := ![1e-6, 1e-5, 1e-12]) (fun j => by fin_cases j <;> constructor <;> norm_num) case_band
  case_ordinary (z := 1 / 2) (by norm_num) (by norm_num) (case_cover_z _).1 (case_cover_z _).2
example := C163_obs_mag_underflow case_grid32 (by norm_num [caseWave, Fin.last]) (lum := ![1e-37, 1e-40, 1e-70]) (fun j => by fin_cases j <;> constructor <;> norm_num) case_band
  case_ordinary (z := 1 / 2) (by norm_num) (by norm_num)
example := C163_distances wide32 case_ordinary (z := 1 / 2) (by norm_num) (by norm_num)
example := C163_times wide32 case_ordinary (z := 1 / 2) (by norm_num) (by norm_num)
end

section
attribute [local instance] Jnp.Dtype.float64

theorem case_grid64 : WaveGrid (n := 1) float64 caseWave where
  mono := caseWave_mono.monotone
  first := tiny64 (by norm_num [caseWave])
  last := max64 (by norm_num [caseWave, Fin.last])
  resolved := fun i => by
    refine ⟨caseWave_resolved i, ?_⟩
    apply tiny64; fin_cases i <;> simp [caseWave] <;> norm_num

/-- C163 applied, double precision: here the spectrum that is lost in single precision has a finite magnitude -/
example := C163_rest_mag_double case_grid64 (lum := fun _ => 1e-37) (fun j => ⟨by norm_num, by norm_num⟩) case_band (case_cover _).1 (case_cover _).2
example := C163_obs_mag_double case_grid64 (by norm_num [caseWave, Fin.last]) (lum := fun _ => 1e-37) (fun j => ⟨by norm_num, by norm_num⟩) case_band
  case_ordinary (z := 1 / 2) (by norm_num) (by norm_num) (case_cover_z _).1 (case_cover_z _).2
example := C163_times wide64 case_ordinary (z := 1000) (by norm_num) (by norm_num)
end

end Dsps.Props
