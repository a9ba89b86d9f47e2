import Verif.Lemmas.RangePhot
import Verif.Props.SspPhot

/-! Property C163: overflow and underflow in magnitudes.  The programs are run on floats with the exponent range of a format (`Verif/Range.lean`). -/
namespace Dsps.Props
open XF Range Dsps.Lemmas Spec
open Dsps.Photometry (AB0)

variable {R : Range} {n m : ℕ}

/-- **Specification.**  A filter curve between the wavelengths `wlo` and `whi` (Angstrom) with transmission between 0 and 1, and a cell of it at least `d` wide at the left end of
which the transmission is at least `τ`. -/
structure Band (fw ft : Fin (m + 1) → ℝ) (wlo whi τ d : ℝ) (c : Fin m) : Prop where
  mono : Monotone fw
  lo : ∀ i, wlo ≤ fw i
  hi : ∀ i, fw i ≤ whi
  trans : ∀ i, 0 ≤ ft i ∧ ft i ≤ 1
  cell : d ≤ fw c.succ - fw c.castSucc
  open_ : τ ≤ ft c.castSucc

/-- the numbers that occur in the flux through a filter of a source between `lo` and `hi` are in the range -/
structure BandFits (R : Range) (wlo whi τ d lo hi : ℝ) : Prop where
  fwlo : R.tiny ≤ wlo
  fone : 1 ≤ wlo
  fwhi : whi ≤ R.max
  fd : R.tiny ≤ d
  fτ : R.tiny ≤ τ
  fsrc : R.tiny ≤ τ * lo
  fint : R.tiny ≤ τ * lo / whi
  fcell : R.tiny ≤ 0.5 * (d * (τ * lo / whi))
  fhalf : R.tiny ≤ 0.5
  fdbl : 2 * hi ≤ R.max
  fsum : whi * (2 * (hi / wlo)) ≤ R.max

variable {fw ft : Fin (m + 1) → ℝ} {wlo whi τ d lo hi : ℝ} {c : Fin m}

theorem Band.is (hb : Band fw ft wlo whi τ d c) (h1 : R.tiny ≤ wlo) (h2 : whi ≤ R.max) (i : Fin (m + 1)) : Is (Flt.lit (fw i) : Ranged R) (fw i) := by
  have : 0 < fw i := R.tiny_pos.trans_le (h1.trans (hb.lo i))
  exact is_lit (Or.inr ⟨by rw [abs_of_pos this]; exact h1.trans (hb.lo i), by rw [abs_of_pos this]; exact (hb.hi i).trans h2⟩)

/-- the flux through a filter of a source that is between 0 and `hi`, and at the cell's left end between `lo` and `hi` -/
theorem flux_btn (hb : Band fw ft wlo whi τ d c) (hR : BandFits R wlo whi τ d lo hi) {s : Fin (m + 1) → Ranged R} (hs : ∀ i, Btn 0 hi (s i))
    (hc : Btn lo hi (s c.castSucc)) :
    Btn (0.5 * (d * (τ * lo / whi))) (whi * (hi / wlo))
      (Gen.trapz (fun i => Flt.lit (fw i)) (fun i => Flt.lit (ft i) * s i / Flt.lit (fw i)) : Ranged R) := by
  have ht := R.tiny_pos
  have hmax := R.max_ge
  have hhi : 0 ≤ hi := by obtain ⟨y, -, h1, h2⟩ := hs c.castSucc; exact h1.trans h2
  have hlo : 0 < lo := by
    by_contra h
    have h1 := hR.fsrc
    have h2 := hR.fτ
    nlinarith
  have hwlo : 0 < wlo := ht.trans_le hR.fwlo
  have hww : wlo ≤ whi := (hb.lo 0).trans (hb.hi 0)
  have hwhi : 0 < whi := hwlo.trans_le hww
  have hiw : hi / wlo ≤ hi := div_le_self hhi hR.fone
  have hiw0 : 0 ≤ hi / wlo := by positivity
  have hdbl := hR.fdbl
  have hW : fw (Fin.last m) - fw 0 ≤ whi := by linarith [hb.hi (Fin.last m), hb.lo 0]
  have hfw : ∀ i, Btn wlo whi (Flt.lit (fw i) : Ranged R) := fun i => (hb.is hR.fwlo hR.fwhi i).btn.mono (hb.lo i) (hb.hi i)
  have hint : ∀ i, Btn 0 (hi / wlo) (Flt.lit (ft i) * s i / Flt.lit (fw i) : Ranged R) := fun i => by
    have h1 : Btn 0 1 (Flt.lit (ft i) : Ranged R) := btn_lit (hb.trans i).1 (hb.trans i).2 ⟨Or.inl rfl, hmax⟩
    have h2 := h1.mul (hs i) le_rfl le_rfl ⟨Or.inl (by simp), by linarith⟩
    rw [mul_zero, one_mul] at h2
    have h3 := h2.div (hfw i) le_rfl hwlo ⟨Or.inl (by simp), by linarith⟩
    rwa [zero_div] at h3
  have hintc : Btn (τ * lo / whi) (hi / wlo) (Flt.lit (ft c.castSucc) * s c.castSucc / Flt.lit (fw c.castSucc) : Ranged R) := by
    have h1 : Btn τ 1 (Flt.lit (ft c.castSucc) : Ranged R) := btn_lit hb.open_ (hb.trans _).2 ⟨Or.inr hR.fτ, hmax⟩
    have h2 := h1.mul hc (ht.trans_le hR.fτ).le hlo.le ⟨Or.inr hR.fsrc, by linarith⟩
    rw [one_mul] at h2
    exact h2.div (hfw _) (ht.trans_le hR.fsrc).le hwlo ⟨Or.inr hR.fint, by linarith⟩
  have hsum : (fw (Fin.last m) - fw 0) * (2 * (hi / wlo)) ≤ R.max := le_trans (mul_le_mul_of_nonneg_right hW (by positivity)) hR.fsum
  have hT := (btn_trapz (fun i => hb.is hR.fwlo hR.fwhi i) hb.mono (hwlo.le.trans (hb.lo 0)) hint (by linarith) hsum
    ⟨by rw [abs_of_pos (by norm_num)]; exact hR.fhalf, by rw [abs_of_pos (by norm_num)]; linarith⟩).2 (τ * lo / whi) d c
    (ht.trans_le hR.fd) hb.cell hR.fd hR.fint hR.fcell (Or.inl hintc)
  exact hT.mono le_rfl (mul_le_mul_of_nonneg_right hW hiw0)

/-- a source below `hi` that underflows in the integrand has flux 0 -/
theorem flux_zero (hb : Band fw ft wlo whi τ d c) (hw : R.tiny ≤ wlo) (hwh : whi ≤ R.max) (hhalf : R.tiny ≤ 0.5) (h1 : hi ≤ R.max) (hu : hi / wlo < R.tiny)
    {s : Fin (m + 1) → Ranged R} (hs : ∀ i, Btn 0 hi (s i)) :
    Rep (Gen.trapz (fun i => Flt.lit (fw i)) (fun i => Flt.lit (ft i) * s i / Flt.lit (fw i)) : Ranged R).x 0 := by
  have ht := R.tiny_pos
  have hmax := R.max_ge
  have hwlo : 0 < wlo := ht.trans_le hw
  have hint : ∀ i, Btn 0 0 (Flt.lit (ft i) * s i / Flt.lit (fw i) : Ranged R) := fun i => by
    have h1 : Btn 0 1 (Flt.lit (ft i) : Ranged R) := btn_lit (hb.trans i).1 (hb.trans i).2 ⟨Or.inl rfl, hmax⟩
    have h2 := h1.mul (hs i) le_rfl le_rfl ⟨Or.inl (by simp), by linarith⟩
    rw [mul_zero, one_mul] at h2
    obtain ⟨y, hy, y0, y1⟩ := h2
    have hf : 0 < fw i := hwlo.trans_le (hb.lo i)
    refine ⟨0, rep_fit_under (hy.div (hb.is hw hwh i).1 hf.ne') ?_, le_rfl, le_rfl⟩
    rw [abs_of_nonneg (div_nonneg y0 hf.le)]
    exact lt_of_le_of_lt (div_le_div₀ (y0.trans y1) y1 hwlo (hb.lo i)) hu
  have hT := (btn_trapz (fun i => hb.is hw hwh i) hb.mono (hwlo.le.trans (hb.lo 0)) hint (by linarith) (by simp; linarith)
    ⟨by rw [abs_of_pos (by norm_num)]; exact hhalf, by rw [abs_of_pos (by norm_num)]; linarith⟩).1
  rw [mul_zero] at hT
  obtain ⟨y, hy, y0, y1⟩ := hT
  rwa [le_antisymm y1 y0] at hy

/-- **Specification.**  A wavelength grid that interpolation resolves, within the range. -/
structure WaveGrid [Jnp.Dtype] (R : Range) (X : Fin (n + 2) → ℝ) : Prop where
  mono : Monotone X
  first : R.tiny ≤ X 0
  last : X (Fin.last (n + 1)) ≤ R.max
  resolved : ∀ i : Fin (n + 1), Jnp.Dtype.interpEps < X i.succ - X i.castSucc ∧ R.tiny ≤ X i.succ - X i.castSucc

theorem WaveGrid.in [Jnp.Dtype] {X : Fin (n + 2) → ℝ} (h : WaveGrid R X) (j : Fin (n + 2)) : R.In (X j) := by
  have h1 : R.tiny ≤ X j := h.first.trans (h.mono (Fin.zero_le _))
  unfold Range.In
  rw [abs_of_pos (R.tiny_pos.trans_le h1)]
  exact ⟨h1, (h.mono (Fin.le_last _)).trans h.last⟩

/-- the flux of the AB standard source, which does not depend on the wavelength -/
theorem ab0_btn (hb : Band fw ft wlo whi τ d c) (hR : BandFits R wlo whi τ d AB0 AB0) (h1 : R.In AB0) :
    Btn (0.5 * (d * (τ * AB0 / whi))) (whi * (AB0 / wlo)) (Gen.flux_ab0_at_10pc (fun i => Flt.lit (fw i)) (fun i => Flt.lit (ft i)) : Ranged R) := by
  have h := (is_lit (R := R) (Or.inr h1)).btn
  have hA : (0:ℝ) ≤ AB0 := by norm_num [AB0]
  exact flux_btn hb hR (fun _ => h.mono hA le_rfl) h

/-- the magnitude of a flux -/
theorem mag_bd {a b : Ranged R} {s0 s1 a0 a1 A : ℝ} (ha : Btn s0 s1 a) (hb : Btn a0 a1 b) (h0 : 0 < s0) (h0' : 0 < a0) (h1 : R.tiny ≤ s0 / a1) (h2 : s1 / a0 ≤ R.max)
    (h3 : (10:ℝ) ^ (-A) ≤ s0 / a1) (h4 : s1 / a0 ≤ (10:ℝ) ^ A) (h5 : 2.5 * A ≤ R.max)
    (hm : 2.5 ≤ R.max) : Bd (2.5 * A) (-(Flt.lit 2.5) * Flt.log10 (a / b) : Ranged R) := by
  obtain ⟨y, hy, y0, y1⟩ := ha.div hb h0.le h0' ⟨Or.inr h1, h2⟩
  have hy0 : 0 < y := (R.tiny_pos.trans_le h1).trans_le y0
  have hl : |Real.logb 10 y| ≤ A := by
    rw [abs_le]
    constructor
    · rw [Real.le_logb_iff_rpow_le (by norm_num) hy0]; exact h3.trans y0
    · rw [Real.logb_le_iff_le_rpow (by norm_num) hy0]; exact y1.trans h4
  have hA : 0 ≤ A := (abs_nonneg _).trans hl
  have h6 : Bd A (Flt.log10 (a / b) : Ranged R) := by
    refine bd_fit (y := Real.logb 10 y) ?_ hl (by linarith)
    show Rep (XF.log10 (a / b).x) _
    rw [hy.log10 hy0]; exact Rep.fin _
  have h7 := (bd_lit (R := R) (y := 2.5) (by rw [abs_of_pos (by norm_num)]; exact hm)).neg
  rw [abs_of_pos (by norm_num)] at h7
  exact h7.mul h6 h5

/-- the magnitude of a flux that underflowed -/
theorem mag_inf {a b : Ranged R} {a0 a1 : ℝ} (ha : Rep a.x 0) (hb : Btn a0 a1 b) (h0 : 0 < a0) (hm : 2.5 ≤ R.max) (ht : R.tiny ≤ 2.5) :
    (-(Flt.lit 2.5) * Flt.log10 (a / b) : Ranged R).x = inf false := by
  obtain ⟨z, hz, z0, -⟩ := hb
  have h1 : Rep (a / b).x 0 := by
    have := ha.div hz (h0.trans_le z0).ne'
    rw [zero_div] at this
    exact rep_fit this (Or.inl rfl)
  have h2 : (Flt.log10 (a / b) : Ranged R).x = inf true := by
    show R.fit (XF.log10 (a / b).x) = _
    rw [h1.log10_zero]; rfl
  have h3 : (-(Flt.lit 2.5) : Ranged R).x = fin (-2.5) := by
    show -(R.fit (fin 2.5)) = _
    rw [R.fit_in ⟨by rw [abs_of_pos (by norm_num)]; exact ht, by rw [abs_of_pos (by norm_num)]; exact hm⟩]
    show (if (2.5:ℝ) = 0 then _ else _) = _
    rw [if_neg (by norm_num)]
  show R.fit ((-(Flt.lit 2.5) : Ranged R).x * (Flt.log10 (a / b) : Ranged R).x) = _
  rw [h2, h3]
  show R.fit (if (-2.5:ℝ) = 0 then nan else inf _) = _
  rw [if_neg (by norm_num)]
  show inf _ = inf false
  simp [XF.signbit]
  norm_num

theorem tiny32 {y : ℝ} (h : (1.2e-38:ℝ) ≤ y) : float32.tiny ≤ y := le_trans (by show (2⁻¹:ℝ) ^ 126 ≤ _; norm_num) h
theorem max32 {y : ℝ} (h : y ≤ (3.4e38:ℝ)) : y ≤ float32.max := h.trans (by show (3.4e38:ℝ) ≤ (2 - 2⁻¹ ^ 23) * 2 ^ 127; norm_num)
theorem tiny64 {y : ℝ} (h : (10:ℝ) ^ (-250:ℤ) ≤ y) : float64.tiny ≤ y := float64_tiny_le.trans ((zpow_le_zpow_right₀ (by norm_num) (by norm_num)).trans h)
theorem max64 {y : ℝ} (h : y ≤ (10:ℝ) ^ (250:ℤ)) : y ≤ float64.max := h.trans ((zpow_le_zpow_right₀ (by norm_num) (by norm_num)).trans float64_max_ge)

theorem ab0_fits32 : BandFits float32 100 1e7 1e-3 1e-2 AB0 AB0 := by
  constructor <;> first | apply tiny32 | apply max32 | skip
  all_goals norm_num [AB0]

theorem ab0_in32 : float32.In AB0 := ⟨by rw [abs_of_pos (by norm_num [AB0])]; apply tiny32; norm_num [AB0],
  by rw [abs_of_pos (by norm_num [AB0])]; apply max32; norm_num [AB0]⟩

theorem ab0_fits64 : BandFits float64 100 1e7 1e-3 1e-2 AB0 AB0 := by
  constructor <;> first | apply tiny64 | apply max64 | skip
  all_goals norm_num [AB0]

theorem ab0_in64 : float64.In AB0 := ⟨by rw [abs_of_pos (by norm_num [AB0])]; apply tiny64; norm_num [AB0],
  by rw [abs_of_pos (by norm_num [AB0])]; apply max64; norm_num [AB0]⟩

variable [Jnp.Dtype] {wave lum X : Fin (n + 2) → ℝ}

/-- the interpolated spectrum, zero outside -/
theorem lum_btn' (hX : WaveGrid R X) {xp fp : Fin (n + 2) → Ranged R} (hp : ∀ j, Is (xp j) (X j)) (hl : ∀ j, Btn lo hi (fp j)) (hs : Span R lo hi) (hh : lo ≤ hi)
    {x : ℝ} (hx : Is (Flt.lit x : Ranged R) x) :
    Btn 0 hi (Gen.interpLR (Flt.lit x) xp fp (Flt.lit 0) (Flt.lit 0) : Ranged R) ∧
    (X 0 ≤ x → x ≤ X (Fin.last (n + 1)) → Btn lo hi (Gen.interpLR (Flt.lit x) xp fp (Flt.lit 0) (Flt.lit 0) : Ranged R)) := by
  have hin := fun (h0 : X 0 ≤ x) (h1 : x ≤ X (Fin.last (n + 1))) => btn_interp (left := (Flt.lit 0 : Ranged R)) (right := Flt.lit 0) hx hp hX.mono
    (R.tiny_pos.le.trans hX.first) hX.resolved (fp := fp) hl hs h0 h1
  refine ⟨?_, hin⟩
  by_cases h0 : X 0 ≤ x
  · by_cases h1 : x ≤ X (Fin.last (n + 1))
    · exact (hin h0 h1).mono hs.nonneg le_rfl
    · rw [interp_outside hx hp (Or.inr (not_le.1 h1))]
      exact ⟨0, (is_lit (Or.inl rfl)).1, le_rfl, hs.nonneg.trans hh⟩
  · rw [interp_outside hx hp (Or.inl (not_le.1 h0))]
    exact ⟨0, (is_lit (Or.inl rfl)).1, le_rfl, hs.nonneg.trans hh⟩

theorem lum_btn (hX : WaveGrid R X) {xp : Fin (n + 2) → Ranged R} (hp : ∀ j, Is (xp j) (X j)) (hl : ∀ j, lo ≤ lum j ∧ lum j ≤ hi) (hs : Span R lo hi)
    {x : ℝ} (hx : Is (Flt.lit x : Ranged R) x) :
    Btn 0 hi (Gen.interpLR (Flt.lit x) xp (fun j => Flt.lit (lum j)) (Flt.lit 0) (Flt.lit 0) : Ranged R) ∧
    (X 0 ≤ x → x ≤ X (Fin.last (n + 1)) → Btn lo hi (Gen.interpLR (Flt.lit x) xp (fun j => Flt.lit (lum j)) (Flt.lit 0) (Flt.lit 0) : Ranged R)) :=
  lum_btn' hX hp (fun j => btn_lit (hl j).1 (hl j).2 hs) hs ((hl 0).1.trans (hl 0).2) hx

/-- C163: in single precision no overflow or underflow makes a rest-frame magnitude infinite or nan, if the spectrum is between 1e-20 and 1e3 Lsun/Hz and the filter lies between
100 Angstrom and 1 mm and has a transmission of at least 1e-3 at some sample inside the spectrum. -/
theorem C163_rest_mag_single (hX : WaveGrid float32 wave) (hl : ∀ j, 1e-20 ≤ lum j ∧ lum j ≤ 1e3) (hb : Band fw ft 100 1e7 1e-3 1e-2 c)
    (h0 : wave 0 ≤ fw c.castSucc) (h1 : fw c.castSucc ≤ wave (Fin.last (n + 1))) :
    Bd 90 (Gen.calc_rest_mag (fun j => Flt.lit (wave j)) (fun j => Flt.lit (lum j)) (fun i => Flt.lit (fw i)) (fun i => Flt.lit (ft i)) : Ranged float32) := by
  have hR : BandFits float32 100 1e7 1e-3 1e-2 1e-20 1e3 := by
    constructor <;> first | apply tiny32 | apply max32 | skip
    all_goals norm_num
  have hs : Span float32 1e-20 1e3 := ⟨Or.inr (tiny32 (by norm_num)), max32 (by norm_num)⟩
  have hfw := fun i => hb.is hR.fwlo hR.fwhi i
  have hL := fun i => lum_btn hX (fun j => is_lit (Or.inr (hX.in j))) hl hs (hfw i)
  have hF := flux_btn hb hR (fun i => (hL i).1) ((hL c.castSucc).2 h0 h1)
  have := mag_bd (A := 36) hF (ab0_btn hb ab0_fits32 ab0_in32) (by norm_num) (by norm_num [AB0]) (tiny32 (by norm_num [AB0])) (max32 (by norm_num [AB0]))
    (by rw [Real.rpow_neg (by norm_num), show (36:ℝ) = ((36:ℕ):ℝ) by norm_num, Real.rpow_natCast]; norm_num [AB0])
    (by rw [show (36:ℝ) = ((36:ℕ):ℝ) by norm_num, Real.rpow_natCast]; norm_num [AB0]) (max32 (by norm_num)) (max32 (by norm_num))
  rw [show (2.5:ℝ) * 36 = 90 by norm_num] at this
  exact this

/-- C163: in double precision this holds for spectra between 1e-200 and 1e100 Lsun/Hz. -/
theorem C163_rest_mag_double (hX : WaveGrid float64 wave) (hl : ∀ j, (10:ℝ) ^ (-200:ℤ) ≤ lum j ∧ lum j ≤ (10:ℝ) ^ (100:ℤ)) (hb : Band fw ft 100 1e7 1e-3 1e-2 c)
    (h0 : wave 0 ≤ fw c.castSucc) (h1 : fw c.castSucc ≤ wave (Fin.last (n + 1))) :
    Bd 575 (Gen.calc_rest_mag (fun j => Flt.lit (wave j)) (fun j => Flt.lit (lum j)) (fun i => Flt.lit (fw i)) (fun i => Flt.lit (ft i)) : Ranged float64) := by
  have hR : BandFits float64 100 1e7 1e-3 1e-2 ((10:ℝ) ^ (-200:ℤ)) ((10:ℝ) ^ (100:ℤ)) := by
    constructor <;> first | apply tiny64 | apply max64 | skip
    all_goals norm_num
  have hs : Span float64 ((10:ℝ) ^ (-200:ℤ)) ((10:ℝ) ^ (100:ℤ)) := ⟨Or.inr (tiny64 (by norm_num)), max64 (by norm_num)⟩
  have hfw := fun i => hb.is hR.fwlo hR.fwhi i
  have hL := fun i => lum_btn hX (fun j => is_lit (Or.inr (hX.in j))) hl hs (hfw i)
  have hF := flux_btn hb hR (fun i => (hL i).1) ((hL c.castSucc).2 h0 h1)
  have := mag_bd (A := 230) hF (ab0_btn hb ab0_fits64 ab0_in64) (by norm_num) (by norm_num [AB0]) (tiny64 (by norm_num [AB0])) (max64 (by norm_num [AB0]))
    (by rw [Real.rpow_neg (by norm_num), show (230:ℝ) = ((230:ℕ):ℝ) by norm_num, Real.rpow_natCast]; norm_num [AB0])
    (by rw [show (230:ℝ) = ((230:ℕ):ℝ) by norm_num, Real.rpow_natCast]; norm_num [AB0]) (max64 (by norm_num)) (max64 (by norm_num))
  rw [show (2.5:ℝ) * 230 = 575 by norm_num] at this
  exact this

/-- C163: but in single precision every spectrum that nowhere exceeds 1e-36 Lsun/Hz (per solar mass, an old population beyond the Lyman limit is fainter) has the magnitude
`+inf` through every such filter, wherever the spectrum is tabulated. -/
theorem C163_rest_mag_underflow (hX : WaveGrid float32 wave) (hl : ∀ j, 0 ≤ lum j ∧ lum j ≤ 1e-36) (hb : Band fw ft 100 1e7 1e-3 1e-2 c) :
    (Gen.calc_rest_mag (fun j => Flt.lit (wave j)) (fun j => Flt.lit (lum j)) (fun i => Flt.lit (fw i)) (fun i => Flt.lit (ft i)) : Ranged float32).x =
      inf false := by
  have hs : Span float32 0 1e-36 := ⟨Or.inl rfl, max32 (by norm_num)⟩
  have hL := fun i => lum_btn hX (fun j => is_lit (Or.inr (hX.in j))) hl hs (hb.is ab0_fits32.fwlo ab0_fits32.fwhi i)
  have hF := flux_zero hb ab0_fits32.fwlo ab0_fits32.fwhi ab0_fits32.fhalf (max32 (by norm_num)) (hi := 1e-36)
    (by show _ < (2⁻¹:ℝ) ^ 126; norm_num) (fun i => (hL i).1)
  exact mag_inf hF (ab0_btn hb ab0_fits32 ab0_in32) (by norm_num [AB0]) (max32 (by norm_num)) (tiny32 (by norm_num))

end Dsps.Props
