import Verif.Props.MetShift
import Verif.Props.RefinePhot
import Verif.Props.Dust

/-! C161: exactly which inputs a result responds to (`/repo/dsps/photometry/photometry_kernels.py`, `/repo/dsps/sed/stellar_sed.py`,
`/repo/dsps/sed/metallicity_weights.py`, `/repo/dsps/sed/stellar_age_weights.py`, `/repo/dsps/utils.py`). -/
namespace Dsps.Props
open Dsps.Utils Dsps.Lemmas Dsps.StellarAgeWeights Dsps.MetallicityWeights Dsps.SspWeights Dsps.Photometry Dsps.Constants Jnp Spec Set
open scoped BigOperators

variable {n m k w : ℕ}

/-! ## magnitudes and the pixels of the spectrum -/

/-- The filter sees the pixel `j` of a spectrum at the wavelengths `xp`: a filter sample with non-zero transmission lies within the range of the spectrum, strictly after
the pixel before `j` and strictly before the pixel after `j`. -/
def Seen (fw ft : Fin (m + 2) → ℝ) (xp : Fin (n + 2) → ℝ) (j : Fin (n + 2)) : Prop :=
  ∃ i, ft i ≠ 0 ∧ xp 0 ≤ fw i ∧ fw i ≤ xp (Fin.last (n + 1)) ∧ (∀ k, k < j → xp k < fw i) ∧ ∀ k, j < k → fw i < xp k

lemma hat_pos [Dtype] {xp : Fin (n + 2) → ℝ} (hr : Resolved xp) (j : Fin (n + 2)) (x : ℝ) :
    0 ≤ interpLR x xp (Pi.single j (1:ℝ)) 0 0 ∧ (0 < interpLR x xp (Pi.single j (1:ℝ)) 0 0 ↔
      xp 0 ≤ x ∧ x ≤ xp (Fin.last (n + 1)) ∧ (∀ k, k < j → xp k < x) ∧ ∀ k, j < k → x < xp k) := by
  have hs := hr.strictMono
  have hm := hs.monotone
  rcases lt_or_ge x (xp 0) with h0 | h0
  · rw [interp_of_lt hm h0]; exact ⟨le_rfl, fun h => absurd h (lt_irrefl _), fun h => absurd h.1 (not_le.mpr h0)⟩
  rcases lt_or_ge (xp (Fin.last (n + 1))) x with h1 | h1
  · rw [interp_of_gt h1]; exact ⟨le_rfl, fun h => absurd h (lt_irrefl _), fun h => absurd h.2.1 (not_le.mpr h1)⟩
  have hl := interpCell_left hm h0
  have hrr := interpCell_right hm h1
  generalize interpCell xp x = i at hl hrr
  have e : interpLR x xp (Pi.single j (1:ℝ)) 0 0 = interp x xp (Pi.single j (1:ℝ)) := by
    unfold interp; rw [interp_of_mem h0 h1, interp_of_mem h0 h1]
  rw [e, interp_cell hr _ i hl hrr]
  have hd : 0 < xp i.succ - xp i.castSucc := sub_pos.mpr (hs (Fin.castSucc_lt_succ (i := i)))
  by_cases c1 : j = i.castSucc
  · subst c1
    rw [Pi.single_eq_same, Pi.single_eq_of_ne (Fin.castSucc_lt_succ (i := i)).ne']
    have e2 : (1:ℝ) + (x - xp i.castSucc) / (xp i.succ - xp i.castSucc) * (0 - 1) = (xp i.succ - x) / (xp i.succ - xp i.castSucc) := by
      field_simp; ring
    rw [e2]
    refine ⟨div_nonneg (by linarith) hd.le, fun h => ⟨h0, h1, fun k hk => (hs hk).trans_le hl, fun k hk => ?_⟩, fun h => ?_⟩
    · have : x < xp i.succ := by by_contra hc; rw [le_antisymm hrr (not_lt.mp hc)] at h; simp at h
      exact this.trans_le (hm (Fin.castSucc_lt_iff_succ_le.mp hk))
    · exact div_pos (sub_pos.mpr (h.2.2.2 _ (Fin.castSucc_lt_succ (i := i)))) hd
  by_cases c2 : j = i.succ
  · subst c2
    rw [Pi.single_eq_same, Pi.single_eq_of_ne (Fin.castSucc_lt_succ (i := i)).ne, zero_add, sub_zero, mul_one]
    refine ⟨div_nonneg (by linarith) hd.le, fun h => ⟨h0, h1, fun k hk => ?_, fun k hk => hrr.trans_lt (hs hk)⟩, fun h => ?_⟩
    · have : xp i.castSucc < x := by by_contra hc; rw [le_antisymm (not_lt.mp hc) hl] at h; simp at h
      exact (hm (Fin.le_castSucc_iff.mpr hk)).trans_lt this
    · exact div_pos (sub_pos.mpr (h.2.2.1 _ (Fin.castSucc_lt_succ (i := i)))) hd
  · rw [Pi.single_eq_of_ne (Ne.symm c1), Pi.single_eq_of_ne (Ne.symm c2)]
    simp only [sub_self, mul_zero, add_zero, le_refl, lt_irrefl, true_and, false_iff]
    rintro ⟨-, -, a, b⟩
    rcases lt_or_gt_of_ne c1 with c | c
    · exact absurd (b _ c) (not_lt.mpr hl)
    · have : i.succ < j := lt_of_le_of_ne (Fin.castSucc_lt_iff_succ_le.mp c) (Ne.symm c2)
      exact absurd (a _ this) (not_lt.mpr hrr)

/-- C161: **the flux in a band, pixel by pixel.**  Changing the luminosity of one pixel of the spectrum by `δ` changes the flux by `δ` times a non-negative number that depends on the
grids only, and that is non-zero exactly if the filter sees the pixel: if a filter sample with non-zero transmission lies between the neighbours of the (redshifted) pixel. -/
theorem C161_flux_pixel [Dtype] {wave : Fin (n + 2) → ℝ} {fw ft : Fin (m + 2) → ℝ} {z : ℝ} (hz : 0 ≤ z) (hr : Resolved wave) (hfw : StrictMono fw)
    (hf : GoodFilter (m := m + 1) fw ft) (j : Fin (n + 2)) :
    ∃ r, 0 ≤ r ∧ (0 < r ↔ Seen fw ft (fun k => wave k * (1 + z)) j) ∧ ∀ (lum : Fin (n + 2) → ℝ) (δ : ℝ),
      obs_flux_ssp (m := m + 1) wave (Function.update lum j (lum j + δ)) fw ft z = obs_flux_ssp (m := m + 1) wave lum fw ft z + δ * r := by
  have hr' := C44_resolved hz hr
  have hp := fun x => hat_pos hr' j x
  refine ⟨obs_flux_ssp (m := m + 1) wave (Pi.single j (1:ℝ)) fw ft z, ?_, ?_, fun lum δ => ?_⟩
  · unfold obs_flux_ssp
    have h0 : trapz fw (fun _ => (0 : ℝ)) = 0 := by rw [trapz_eq]; simp
    simp only
    exact h0.ge.trans (trapz_mono hf.1 fun i => div_nonneg (mul_nonneg (hf.2.2 i) (hp _).1) (hf.2.1 i).le)
  · unfold obs_flux_ssp
    simp only
    constructor
    · intro h
      by_contra hc
      refine h.ne' ?_
      have : (fun i => ft i * interpLR (fw i) (fun k => wave k * (1 + z)) (Pi.single j (1:ℝ)) 0 0 / fw i) = fun _ => 0 := by
        funext i
        rcases eq_or_ne (ft i) 0 with h0 | h0
        · rw [h0]; simp
        · have : ¬ 0 < interpLR (fw i) (fun k => wave k * (1 + z)) (Pi.single j (1:ℝ)) 0 0 := fun hh => hc ⟨i, h0, (hp _).2.mp hh⟩
          rw [le_antisymm (not_lt.mp this) (hp _).1]; simp
      rw [this, trapz_eq]; simp
    · rintro ⟨i, h0, h⟩
      refine trapz_pos hfw (fun i => div_nonneg (mul_nonneg (hf.2.2 i) (hp _).1) (hf.2.1 i).le) ⟨i, ?_⟩
      exact div_pos (mul_pos (lt_of_le_of_ne (hf.2.2 i) (Ne.symm h0)) ((hp _).2.mpr h)) (hf.2.1 i)
  · have e : Function.update lum j (lum j + δ) = fun i => 1 * lum i + δ * (Pi.single j (1:ℝ) : Fin (n + 2) → ℝ) i := by
      funext i
      rcases eq_or_ne i j with h | h
      · subst h; simp
      · rw [Function.update_of_ne h, Pi.single_eq_of_ne h]; ring
    rw [e]
    unfold obs_flux_ssp
    simp only [interp0_lin]
    rw [← trapz_smul, ← trapz_add']
    congr 1; funext i; ring

/-- C161: **a magnitude responds to exactly the pixels that the filter samples**: raising the luminosity of one pixel brightens the magnitude, observed or in the rest frame, if the filter sees
the pixel, and otherwise leaves it exactly as it was, however bright the pixel becomes.  In particular an emission line that falls between two samples of the filter curve is missed. -/
theorem C161_magnitude_pixel [Dtype] {wave lum : Fin (n + 2) → ℝ} {fw ft : Fin (m + 2) → ℝ} {z δ : ℝ} (hz : 0 ≤ z) (hr : Resolved wave) (hfw : StrictMono fw)
    (hf : GoodFilter (m := m + 1) fw ft) (hpos : 0 < obs_flux_ssp (m := m + 1) wave lum fw ft z / flux_ab0_at_10pc (m := m + 1) fw ft) (hδ : 0 < δ) (j : Fin (n + 2))
    (Om0 w0 wa h : ℝ) :
    let mag := fun lum => calc_obs_mag (m := m + 1) wave lum fw ft z Om0 w0 wa h
    let line := Function.update lum j (lum j + δ)
    (Seen fw ft (fun k => wave k * (1 + z)) j → mag line < mag lum) ∧ (¬ Seen fw ft (fun k => wave k * (1 + z)) j → mag line = mag lum) ∧
    (z = 0 → (Seen fw ft wave j → calc_rest_mag (m := m + 1) wave line fw ft < calc_rest_mag (m := m + 1) wave lum fw ft) ∧
      (¬ Seen fw ft wave j → calc_rest_mag (m := m + 1) wave line fw ft = calc_rest_mag (m := m + 1) wave lum fw ft)) := by
  obtain ⟨r, hr0, hr1, hr2⟩ := C161_flux_pixel hz hr hfw hf j
  have hab := ab0_nonneg (m := m + 1) hf
  have hab' : 0 < flux_ab0_at_10pc (m := m + 1) fw ft := by
    rcases hab.lt_or_eq with h | h
    · exact h
    · rw [← h] at hpos; simp at hpos
  have key : Seen fw ft (fun k => wave k * (1 + z)) j →
      -2.5 * log10 (obs_flux_ssp (m := m + 1) wave (Function.update lum j (lum j + δ)) fw ft z / flux_ab0_at_10pc (m := m + 1) fw ft) <
      -2.5 * log10 (obs_flux_ssp (m := m + 1) wave lum fw ft z / flux_ab0_at_10pc (m := m + 1) fw ft) := fun hs => by
    have := log10_lt hpos (div_lt_div_of_pos_right (show obs_flux_ssp (m := m + 1) wave lum fw ft z <
      obs_flux_ssp (m := m + 1) wave (Function.update lum j (lum j + δ)) fw ft z by
        rw [hr2]; have := mul_pos hδ (hr1.mpr hs); linarith) hab')
    linarith
  have key2 : ¬ Seen fw ft (fun k => wave k * (1 + z)) j →
      obs_flux_ssp (m := m + 1) wave (Function.update lum j (lum j + δ)) fw ft z = obs_flux_ssp (m := m + 1) wave lum fw ft z := fun hs => by
    rw [hr2, le_antisymm (not_lt.mp fun h => hs (hr1.mp h)) hr0]; simp
  refine ⟨fun hs => ?_, fun hs => ?_, ?_⟩
  · have := key hs
    simp only [calc_obs_mag]; linarith
  · simp only [calc_obs_mag]; rw [key2 hs]
  · rintro rfl
    simp only [add_zero, mul_one] at key key2
    refine ⟨fun hs => ?_, fun hs => ?_⟩
    · have := key hs
      rw [obs_eq_rest_at_zero, obs_eq_rest_at_zero] at this
      simpa only [calc_rest_mag, calc_rest_flux] using this
    · have := key2 hs
      rw [obs_eq_rest_at_zero, obs_eq_rest_at_zero] at this
      simp only [calc_rest_mag, calc_rest_flux]; rw [this]

/-- C161: **an emission line between two filter samples is missed**, however bright it is: if the pixel before the line and the pixel after it both lie between the same two neighbouring samples
of the filter curve, the magnitude is that of the spectrum without the line. -/
theorem C161_line_missed [Dtype] {wave lum : Fin (n + 2) → ℝ} {fw ft : Fin (m + 2) → ℝ} {z : ℝ} (hz : 0 ≤ z) (hr : Resolved wave) (hfw : StrictMono fw)
    (hf : GoodFilter (m := m + 1) fw ft) (hpos : 0 < obs_flux_ssp (m := m + 1) wave lum fw ft z / flux_ab0_at_10pc (m := m + 1) fw ft) (before line after : Fin (n + 2)) (hb : before < line)
    (ha : line < after) (i : Fin (m + 1)) (h0 : fw i.castSucc ≤ wave before * (1 + z)) (h1 : wave after * (1 + z) ≤ fw i.succ) {brightness : ℝ} (hbr : 0 < brightness)
    (Om0 w0 wa h : ℝ) :
    calc_obs_mag (m := m + 1) wave (Function.update lum line (lum line + brightness)) fw ft z Om0 w0 wa h = calc_obs_mag (m := m + 1) wave lum fw ft z Om0 w0 wa h := by
  refine (C161_magnitude_pixel hz hr hfw hf hpos hbr line Om0 w0 wa h).2.1 ?_
  rintro ⟨q, -, -, -, a, b⟩
  have ha' := a _ hb
  have hb' := b _ ha
  have l1 : i.castSucc < q := hfw.lt_iff_lt.mp (h0.trans_lt ha')
  have l2 : q < i.succ := hfw.lt_iff_lt.mp (hb'.trans_le h1)
  exact absurd (Fin.castSucc_lt_iff_succ_le.mp l1) (not_le.mpr l2)

/-! ## the mass formed and the star formation rates -/

lemma mstar_lt {t s s' : Fin (n + 1) → ℝ} (ht : StrictMono t) (ht0 : 0.001 < t 0) (h : ∀ j, s j ≤ s' j) {q : Fin (n + 1)} (hq : s q < s' q) {i : Fin (n + 1)} (hi : q ≤ i) :
    cumulative_mstar_formed t s i < cumulative_mstar_formed t s' i := by
  induction i using Fin.induction with
  | zero =>
    rw [(C12_mstar_formula t _).1, (C12_mstar_formula t _).1]; unfold trapezoidArea
    have h0 : q = 0 := le_antisymm hi (Fin.zero_le _)
    subst h0
    have := sub_pos.mpr ht0
    nlinarith
  | succ i ih =>
    rw [(C12_mstar_formula t _).2, (C12_mstar_formula t _).2]; unfold trapezoidArea
    have hd := sub_pos.mpr (ht (Fin.castSucc_lt_succ (i := i)))
    have h1 := h i.castSucc
    have h2 := h i.succ
    rcases hi.lt_or_eq with hlt | heq
    · have := ih (Fin.le_castSucc_iff.mpr hlt)
      nlinarith
    · subst heq
      have := mstar_mono ht.monotone ht0.le h i.castSucc
      nlinarith

lemma mstar_congr {t s s' : Fin (n + 1) → ℝ} {q : Fin (n + 1)} (h : ∀ j, j < q → s j = s' j) {i : Fin (n + 1)} (hi : i < q) :
    cumulative_mstar_formed t s i = cumulative_mstar_formed t s' i := by
  induction i using Fin.induction with
  | zero => rw [(C12_mstar_formula t _).1, (C12_mstar_formula t _).1, h 0 hi]
  | succ i ih =>
    have := (Fin.castSucc_lt_succ (i := i)).trans hi
    rw [(C12_mstar_formula t _).2, (C12_mstar_formula t _).2, ih this, h _ hi, h _ this]

/-- C161: **the mass formed responds to exactly the rates up to the first table time at or after it**: raising the star formation rate at the table time `q` above the floor raises the mass formed
by the time `τ` if all earlier table times are before `τ` - also when `τ` itself is before the table time `q` - and otherwise does not change it. -/
theorem C161_mass_rate [Dtype] {t s : Fin (n + 2) → ℝ} {sfr_min rate τ : ℝ} (ht : StrictMono t) (ht0 : 0.001 < t 0) (hr : Resolved fun i => Real.logb 10 (t i)) (hs : 0 < sfr_min)
    (q : Fin (n + 2)) (hrate : max sfr_min (s q) < rate) (hτ : 0 < τ) :
    let raised := Function.update s q rate
    ((∀ i, i < q → t i < τ) → massFormed t s sfr_min τ < massFormed t raised sfr_min τ) ∧
    ((∃ i, i < q ∧ τ ≤ t i) → massFormed t raised sfr_min τ = massFormed t s sfr_min τ) := by
  intro raised
  have hle : ∀ j, max sfr_min (s j) ≤ max sfr_min (raised j) := fun j => by
    rcases eq_or_ne j q with h | h
    · subst h; simp only [raised, Function.update_self]; exact hrate.le.trans (le_max_right _ _)
    · simp only [raised, Function.update_of_ne h]; exact le_rfl
  have hq : max sfr_min (s q) < max sfr_min (raised q) := by
    simp only [raised, Function.update_self]; exact hrate.trans_le (le_max_right _ _)
  have hp := fun s' : Fin (n + 2) → ℝ => C12_mstar_pos_strictMono t (fun j => max sfr_min (s' j)) ht ht0 fun i => lt_max_of_lt_left hs
  have hlt : ∀ i, q ≤ i → log10 (cumulative_mstar_formed t (fun j => max sfr_min (s j)) i) < log10 (cumulative_mstar_formed t (fun j => max sfr_min (raised j)) i) :=
    fun i hi => log10_lt ((hp s).1 i) (mstar_lt ht ht0 hle hq hi)
  have hle' : ∀ i, log10 (cumulative_mstar_formed t (fun j => max sfr_min (s j)) i) ≤ log10 (cumulative_mstar_formed t (fun j => max sfr_min (raised j)) i) :=
    fun i => log10_le ((hp s).1 i) (mstar_mono ht.monotone ht0.le hle i)
  have hr' : Resolved fun i => log10 (t i) := hr
  have hlg := lgt_strictMono ht ht0
  constructor
  · intro hb
    have e : ∀ s, massFormed t s sfr_min τ = exp10 (interp (log10 τ) (fun i => log10 (t i)) (fun i => log10 (cumulative_mstar_formed t (fun j => max sfr_min (s j)) i))) := fun _ => rfl
    rcases le_or_gt τ (t 0) with h0 | h0
    · have q0 : q = 0 := by
        by_contra hc
        exact absurd (hb 0 (Fin.pos_of_ne_zero hc)) (not_lt.mpr h0)
      rw [massFormed_before ht ht0 hτ h0, massFormed_before ht ht0 hτ h0, massFormed_table ht ht0 hs hr', massFormed_table ht ht0 hs hr']
      exact mstar_lt ht ht0 hle hq (by rw [q0])
    rcases le_or_gt (t (Fin.last (n + 1))) τ with h1 | h1
    · rw [massFormed_after ht ht0 hr' h1, massFormed_after ht ht0 hr' h1, massFormed_table ht ht0 hs hr', massFormed_table ht ht0 hs hr']
      exact mstar_lt ht ht0 hle hq (Fin.le_last _)
    rw [e, e]
    apply exp10_strictMono
    have hl := interpCell_left hlg.monotone (log10_le (t_pos ht ht0 0) h0.le)
    have hrr := interpCell_right hlg.monotone (log10_le hτ h1.le)
    generalize interpCell (fun i => log10 (t i)) (log10 τ) = i at hl hrr
    rw [interp_cell hr' _ i hl hrr, interp_cell hr' _ i hl hrr]
    have hd : 0 < log10 (t i.succ) - log10 (t i.castSucc) := sub_pos.mpr (hlg (Fin.castSucc_lt_succ (i := i)))
    have x0 : 0 ≤ (log10 τ - log10 (t i.castSucc)) / (log10 (t i.succ) - log10 (t i.castSucc)) := div_nonneg (sub_nonneg.mpr hl) hd.le
    have x1 : (log10 τ - log10 (t i.castSucc)) / (log10 (t i.succ) - log10 (t i.castSucc)) ≤ 1 := by rw [div_le_one hd]; linarith
    have hqi : q ≤ i.succ := by
      by_contra hc
      have := hb _ (not_le.mp hc)
      exact absurd (log10_lt (t_pos ht ht0 _) this) (not_lt.mpr hrr)
    have s2 := hlt _ hqi
    rcases hqi.lt_or_eq with hlt' | heq
    · have s1 := hlt _ (Fin.le_castSucc_iff.mpr hlt')
      generalize (log10 τ - log10 (t i.castSucc)) / (log10 (t i.succ) - log10 (t i.castSucc)) = x at x0 x1 ⊢
      rcases x0.lt_or_eq with hx | hx
      · nlinarith [mul_pos hx (sub_pos.mpr s2), mul_nonneg (sub_nonneg.mpr x1) (sub_nonneg.mpr s1.le)]
      · rw [← hx]; simpa using s1
    · have hx : 0 < (log10 τ - log10 (t i.castSucc)) / (log10 (t i.succ) - log10 (t i.castSucc)) :=
        div_pos (sub_pos.mpr (log10_lt (t_pos ht ht0 _) (hb _ (heq ▸ Fin.castSucc_lt_succ (i := i))))) hd
      have s1 := hle' i.castSucc
      nlinarith [mul_pos hx (sub_pos.mpr s2), mul_nonneg (sub_nonneg.mpr x1) (sub_nonneg.mpr s1)]
  · rintro ⟨i, hi, hle⟩
    have hc : ∀ j, j ≤ i → cumulative_mstar_formed t (fun j => max sfr_min (raised j)) j = cumulative_mstar_formed t (fun j => max sfr_min (s j)) j := fun j hj =>
      mstar_congr (q := q) (fun p hp => by simp only [raised, Function.update_of_ne hp.ne]) (hj.trans_lt hi)
    rcases hle.lt_or_eq with h | h
    · unfold massFormed
      congr 1
      exact interp_congr_left hlg i (log10_lt hτ h) fun j hj => by rw [hc j hj]
    · rw [h, massFormed_table ht ht0 hs hr', massFormed_table ht ht0 hs hr', hc i le_rfl]

/-! ## metallicity -/

lemma twC_eq_iff {x y : ℝ} (h : x < y) : twC x = twC y ↔ y ≤ -3 ∨ 3 ≤ x := by
  constructor
  · intro he
    by_contra hc
    push Not at hc
    have h1 : twC (max x (-3)) < twC (min y 3) :=
      twC_strictMonoOn ⟨le_max_right _ _, max_le hc.2.le (by norm_num)⟩ ⟨le_min hc.1.le (by norm_num), min_le_right _ _⟩
        (max_lt (lt_min h hc.2) (lt_min hc.1 (by norm_num)))
    exact absurd ((twC_mono (le_max_left x (-3))).trans_lt (h1.trans_le (twC_mono (min_le_left y 3)))) (by rw [he]; exact lt_irrefl _)
  · rintro (h' | h')
    · rw [twC_of_le h', twC_of_le (h.le.trans h')]
    · rw [twC_of_ge h', twC_of_ge (h'.trans h.le)]

/-- C161: **plateaus in metallicity**: two metallicities `μ < μ'` with the same scatter have the same weights exactly if no edge between two metallicity bins lies strictly between the lower end of the
first distribution and the upper end of the second.  So as long as the whole distribution stays within one bin the weights - and with them the spectrum, C161_metallicity_sed - do not respond to the
galaxy's metallicity. -/
theorem C161_metallicity_plateau {μ μ' σ : ℝ} (z : Fin (k + 3) → ℝ) (hσ : 0 < σ) (hμ : μ < μ') (hl : -10 ≤ μ - 3 * σ) (hh : μ' + 3 * σ ≤ 10) :
    calc_lgmet_weights_from_lognormal_mdf μ σ z = calc_lgmet_weights_from_lognormal_mdf μ' σ z ↔
      ∀ i : Fin (k + 2), get_bin_edges z (-10) 10 i.succ.castSucc ≤ μ - 3 * σ ∨ μ' + 3 * σ ≤ get_bin_edges z (-10) 10 i.succ.castSucc := by
  have hsum : ∀ ν, -10 ≤ ν - 3 * σ → ν + 3 * σ ≤ 10 → ∀ j : Fin (k + 3),
      (∑ i, if i ≤ j then calc_lgmet_weights_from_lognormal_mdf ν σ z i else 0) = twC ((get_bin_edges z (-10) 10 j.succ - ν) / σ) := fun ν a b j => by
    rw [← tw_cuml_kern_eq]; exact (C144_scatter hσ le_rfl a b j).1
  have hiff : ∀ x, twC ((x - μ) / σ) = twC ((x - μ') / σ) ↔ x ≤ μ - 3 * σ ∨ μ' + 3 * σ ≤ x := fun x => by
    rw [eq_comm, twC_eq_iff (div_lt_div_of_pos_right (by linarith) hσ), div_le_iff₀ hσ, le_div_iff₀ hσ]
    constructor <;> (rintro (h | h) <;> [left; right] <;> linarith)
  have hlast : get_bin_edges z (-10) 10 (Fin.last (k + 3)) = 10 := (C05_edges_limits z (-10) 10).2
  constructor
  · intro h i
    rw [← hiff]
    have e : i.succ.castSucc = (i.castSucc : Fin (k + 3)).succ := rfl
    rw [e, ← hsum μ hl (by linarith), ← hsum μ' (by linarith) hh, h]
  · intro h
    have hup : ∀ j : Fin (k + 3), (∑ i, if i ≤ j then calc_lgmet_weights_from_lognormal_mdf μ σ z i else 0) =
        ∑ i, if i ≤ j then calc_lgmet_weights_from_lognormal_mdf μ' σ z i else 0 := fun j => by
      rw [hsum μ hl (by linarith), hsum μ' (by linarith) hh, hiff]
      induction j using Fin.lastCases with
      | last => right; rw [Fin.succ_last, hlast]; exact hh
      | cast j => exact h j
    funext j
    have single : ∀ f : Fin (k + 3) → ℝ, f j = (∑ i, if i ≤ j then f i else 0) - (∑ i, if i < j then f i else 0) := fun f => by
      rw [← Finset.sum_sub_distrib, Finset.sum_eq_single j]
      · simp
      · intro i _ hi
        rcases lt_or_gt_of_ne hi with h | h
        · rw [if_pos h.le, if_pos h, sub_self]
        · rw [if_neg (not_le.mpr h), if_neg (not_lt.mpr h.le), sub_self]
      · exact fun h => absurd (Finset.mem_univ _) h
    rw [single (calc_lgmet_weights_from_lognormal_mdf μ σ z), single (calc_lgmet_weights_from_lognormal_mdf μ' σ z), hup j]
    congr 1
    rcases j.eq_zero_or_eq_succ with rfl | ⟨p, rfl⟩
    · simp
    · have : ∀ f : Fin (k + 3) → ℝ, (∑ i, if i < p.succ then f i else 0) = ∑ i, if i ≤ p.castSucc then f i else 0 := fun f =>
        Finset.sum_congr rfl fun i _ => by simp only [Fin.le_castSucc_iff]
      rw [this, this, hup]

/-! ## the library -/

lemma bin_integral_pos {μ σ x y : ℝ} (hσ : 0 < σ) (hxy : x < y) : 0 < (∫ u in x..y, triweight_gaussian u μ σ) ↔ x < μ + 3 * σ ∧ μ - 3 * σ < y := by
  rw [integral_triweight_gaussian _ _ _ _ hσ.ne', tw_cuml_kern_eq, tw_cuml_kern_eq, sub_pos]
  have h : (x - μ) / σ < (y - μ) / σ := div_lt_div_of_pos_right (by linarith) hσ
  have h2 : twC ((x - μ) / σ) < twC ((y - μ) / σ) ↔ ¬ twC ((x - μ) / σ) = twC ((y - μ) / σ) :=
    ⟨fun h => h.ne, fun h' => lt_of_le_of_ne (twC_mono h.le) h'⟩
  rw [h2, twC_eq_iff h, div_le_iff₀ hσ, le_div_iff₀ hσ, not_or, not_le, not_le]
  constructor <;> (rintro ⟨p, q⟩; constructor <;> linarith)

section library
variable [Dtype] {t s : Fin (n + 2) → ℝ} {a : Fin (m + 3) → ℝ} {z : Fin (k + 3) → ℝ} {flux : Fin (k + 3) → Fin (m + 3) → Fin w → ℝ} {t_obs scatter μ μ' : ℝ}

/-- C161: **the spectrum uses exactly these SSPs**: changing the flux of the SSP of metallicity `i` and age `j` at one wavelength changes the galaxy's spectrum there if and only if the metallicity bin
meets the galaxy's metallicity distribution and the age bin contains birth times within the star formation table; at other wavelengths the spectrum does not change. -/
theorem C161_ssp_used (H : SedInputs t a z t_obs scatter) (hl : -10 < μ + 3 * scatter) (hh : μ - 3 * scatter < 10) (i : Fin (k + 3)) (j : Fin (m + 3)) (l : Fin w) {δ : ℝ} (hδ : δ ≠ 0) :
    let changed : Fin (k + 3) → Fin (m + 3) → Fin w → ℝ := fun i' j' l' => if i' = i ∧ j' = j ∧ l' = l then flux i j l + δ else flux i' j' l'
    let sed := fun flux => (calc_rest_sed_sfh_table_lognormal_mdf t s μ scatter z a flux t_obs).rest_sed
    (sed changed l ≠ sed flux l ↔
      (get_bin_edges z (-10) 10 i.castSucc < μ + 3 * scatter ∧ μ - 3 * scatter < get_bin_edges z (-10) 10 i.succ) ∧
      t 0 < t_obs - (10:ℝ) ^ get_lg_age_bin_edges a j.castSucc ∧ t_obs - (10:ℝ) ^ get_lg_age_bin_edges a j.succ < t (Fin.last (n + 1))) ∧
    ∀ l', l' ≠ l → sed changed l' = sed flux l' := by
  intro changed sed
  have eL : (-10 : ℝ) = LGMET_LO := by norm_num [LGMET_LO]
  have eH : (10 : ℝ) = LGMET_HI := by norm_num [LGMET_HI]
  have hw0 : ∀ l' : Fin w, l' ≠ l → sed changed l' = sed flux l' := fun l' h => by
    simp only [sed]
    rw [sed_raw H s l', sed_raw H s l']
    congr 1
    refine Finset.sum_congr rfl fun j' _ => ?_
    congr 1
    unfold unitLight
    refine Finset.sum_congr rfl fun i' _ => ?_
    congr 1
    exact if_neg fun hc => h hc.2.2
  refine ⟨?_, hw0⟩
  have hdiff : sed changed l = sed flux l + massFormed t s 1e-14 t_obs / (massFormed t s 1e-14 (birthTime t_obs (get_lg_age_bin_edges a 0)) -
        massFormed t s 1e-14 (birthTime t_obs (get_lg_age_bin_edges a (Fin.last (m + 3))))) *
        (rawMass t s a t_obs j * (calc_lgmet_weights_from_lognormal_mdf μ scatter z i * δ)) := by
    simp only [sed]
    rw [sed_raw H s l, sed_raw H s l, ← mul_add]
    congr 1
    have e : ∀ j', unitLight μ scatter z changed l j' = unitLight μ scatter z flux l j' + if j' = j then calc_lgmet_weights_from_lognormal_mdf μ scatter z i * δ else 0 := fun j' => by
      unfold unitLight
      have : ∀ i', calc_lgmet_weights_from_lognormal_mdf μ scatter z i' * changed i' j' l = calc_lgmet_weights_from_lognormal_mdf μ scatter z i' * flux i' j' l +
          if i' = i then (if j' = j then calc_lgmet_weights_from_lognormal_mdf μ scatter z i * δ else 0) else 0 := fun i' => by
        by_cases h1 : i' = i
        · by_cases h2 : j' = j
          · subst h1 h2; simp only [changed]; simp; ring
          · simp [changed, h2]
        · simp [changed, h1]
      rw [Finset.sum_congr rfl fun i' _ => this i', Finset.sum_add_distrib, Finset.sum_ite_eq' Finset.univ i]
      simp
    simp only [e, mul_add, Finset.sum_add_distrib]
    congr 1
    rw [Finset.sum_eq_single j (fun j' _ h => by rw [if_neg h, mul_zero]) (fun h => absurd (Finset.mem_univ _) h), if_pos rfl]
  have hem := lgmet_edges_mono z H.mets H.low H.high
  have htot : 0 < ∫ u in (get_bin_edges z LGMET_LO LGMET_HI 0)..(get_bin_edges z LGMET_LO LGMET_HI (Fin.last (k + 3))), triweight_gaussian u μ scatter := by
    rw [bin_integral_pos H.width (hem (Fin.pos_of_ne_zero (Fin.last_pos.ne'))), (C05_edges_limits z LGMET_LO LGMET_HI).1, (C05_edges_limits z LGMET_LO LGMET_HI).2, ← eL, ← eH]
    exact ⟨hl, hh⟩
  have hmet : calc_lgmet_weights_from_lognormal_mdf μ scatter z i ≠ 0 ↔
      get_bin_edges z (-10) 10 i.castSucc < μ + 3 * scatter ∧ μ - 3 * scatter < get_bin_edges z (-10) 10 i.succ := by
    have e : calc_lgmet_weights_from_lognormal_mdf μ scatter z i = get_triweights_singlepoint μ scatter (get_bin_edges z LGMET_LO LGMET_HI) i := rfl
    have hb := bin_integral_pos (μ := μ) H.width (hem (Fin.castSucc_lt_succ (i := i)))
    rw [eL, eH, ← hb, e, C04_triweights_overlap μ scatter H.width _ htot.ne' i, div_ne_zero_iff, and_iff_left htot.ne']
    refine ⟨fun h => lt_of_le_of_ne ?_ (Ne.symm h), fun h => h.ne'⟩
    have := (C21_lgmet_weights_prob_mild_partial μ scatter H.width z H.mets H.low H.high).1 i
    rw [e, C04_triweights_overlap μ scatter H.width _ htot.ne' i] at this
    by_contra hc
    exact absurd this (not_le.mpr (div_neg_of_neg_of_pos (not_le.mp hc) htot))
  have hage : rawMass t s a t_obs j ≠ 0 ↔
      t 0 < t_obs - (10:ℝ) ^ get_lg_age_bin_edges a j.castSucc ∧ t_obs - (10:ℝ) ^ get_lg_age_bin_edges a j.succ < t (Fin.last (n + 1)) := by
    have hpow : (10:ℝ) ^ get_lg_age_bin_edges a j.castSucc < (10:ℝ) ^ get_lg_age_bin_edges a j.succ :=
      Real.rpow_lt_rpow_of_exponent_lt (by norm_num) (C17_age_edges_mono a H.ages (Fin.castSucc_lt_succ (i := j)))
    have h0 := H.start
    have hlast : t 0 ≤ t (Fin.last (n + 1)) := H.times.monotone (Fin.zero_le _)
    have hle := birthTime_anti t_obs ((C17_age_edges_mono a H.ages).monotone (Fin.castSucc_lt_succ (i := j)).le)
    rcases hle.lt_or_eq with hlt | heq
    · have hiff := massFormed_lt_iff (s := s) (sfr_min := 1e-14) H.times H.start (by norm_num) H.resolved (birthTime_pos _ _) hlt
      have : rawMass t s a t_obs j ≠ 0 ↔ massFormed t s 1e-14 (birthTime t_obs (get_lg_age_bin_edges a j.succ)) < massFormed t s 1e-14 (birthTime t_obs (get_lg_age_bin_edges a j.castSucc)) := by
        have := H.raw_nonneg s j
        unfold rawMass at this ⊢
        exact ⟨fun h => lt_of_le_of_ne (sub_nonneg.mp this) fun hc => h (by rw [hc, sub_self]), fun h => (sub_pos.mpr h).ne'⟩
      rw [this, hiff]
      unfold birthTime
      rw [lt_max_iff, max_lt_iff]
      constructor
      · rintro ⟨h | h, -, h'⟩
        · linarith
        · exact ⟨h, h'⟩
      · rintro ⟨h, h'⟩
        exact ⟨Or.inr h, by linarith, h'⟩
    · have h1 : rawMass t s a t_obs j = 0 := by unfold rawMass; rw [heq, sub_self]
      refine ⟨fun h => absurd h1 h, fun ⟨h, _⟩ => ?_⟩
      exfalso
      unfold birthTime at heq
      rw [max_eq_right (by linarith : (0.001:ℝ) ≤ t_obs - (10:ℝ) ^ get_lg_age_bin_edges a j.castSucc)] at heq
      rcases max_choice (0.001:ℝ) (t_obs - (10:ℝ) ^ get_lg_age_bin_edges a j.succ) with hc | hc <;> rw [hc] at heq <;> linarith
  have hM : massFormed t s 1e-14 t_obs / (massFormed t s 1e-14 (birthTime t_obs (get_lg_age_bin_edges a 0)) -
        massFormed t s 1e-14 (birthTime t_obs (get_lg_age_bin_edges a (Fin.last (m + 3))))) ≠ 0 := div_ne_zero (massFormed_pos _).ne' (H.mass_pos s).ne'
  rw [hdiff, ← hmet, ← hage, ne_eq, add_eq_left, mul_eq_zero, mul_eq_zero, mul_eq_zero]
  tauto

/-- C161: where the weights do not respond to the metallicity, neither does the spectrum. -/
theorem C161_metallicity_sed (hσ : 0 < scatter) (hμ : μ < μ') (hl : -10 ≤ μ - 3 * scatter) (hh : μ' + 3 * scatter ≤ 10)
    (hp : ∀ i : Fin (k + 2), get_bin_edges z (-10) 10 i.succ.castSucc ≤ μ - 3 * scatter ∨ μ' + 3 * scatter ≤ get_bin_edges z (-10) 10 i.succ.castSucc) :
    calc_rest_sed_sfh_table_lognormal_mdf t s μ scatter z a flux t_obs = calc_rest_sed_sfh_table_lognormal_mdf t s μ' scatter z a flux t_obs := by
  have h := (C161_metallicity_plateau z hσ hμ hl hh).mpr hp
  unfold calc_rest_sed_sfh_table_lognormal_mdf calc_ssp_weights_sfh_table_lognormal_mdf
  rw [h]

end library

/-! ## the theorems applied -/

section
attribute [local instance] Dtype.float64

/-- the filter of `Props/Photometry.lean` (4000, 5000, 6000 Å) and a spectrum at redshift 1/2 with lines at 2800, 2900 Å in the rest frame, 4200, 4350 Å observed -/
noncomputable def caseLines : Fin 5 → ℝ := ![1000, 2800, 2900, 3000, 30000]

theorem caseLines_resolved : Resolved (n := 3) caseLines := by
  intro i; show (2:ℝ)⁻¹ ^ 104 < _; fin_cases i <;> simp [caseLines] <;> norm_num

theorem caseLines_flux : 0 < obs_flux_ssp (n := 3) (m := 2) caseLines (fun _ => 1) caseFW caseFT (1 / 2) / flux_ab0_at_10pc (m := 2) caseFW caseFT := by
  have hm : Monotone fun j => caseLines j * (1 + 1 / 2) := fun i j h => by
    have := caseLines_resolved.strictMono.monotone h; show _ * _ ≤ _ * _; linarith
  have h := (C42_monotone (n := 3) (m := 2) hm case_good (z := 0) (by norm_num)
    (f := fun _ => 1 * 1.13492e-13) (g := fun _ => 1) (by intro i; norm_num) 0.3 (-1) 0 0.7).1
  rw [(C40_ab_zero_point_rest (n := 3) (m := 2) hm caseFW caseFT (c := 1) case_ab.ne' (by
    intro i; fin_cases i <;> norm_num [caseLines, caseFW, Fin.last])).1] at h
  exact lt_of_lt_of_le one_pos h

/-- a line at 2900 Å, at redshift 1/2 between the filter samples at 4000 and 5000 Å, does not change the magnitude -/
example (brightness : ℝ) (h : 0 < brightness) :
    calc_obs_mag (n := 3) (m := 2) caseLines (Function.update (fun _ => 1) 2 (1 + brightness)) caseFW caseFT (1 / 2) 0.3 (-1) 0 0.7 =
      calc_obs_mag (n := 3) (m := 2) caseLines (fun _ => 1) caseFW caseFT (1 / 2) 0.3 (-1) 0 0.7 :=
  C161_line_missed (n := 3) (m := 1) (by norm_num) caseLines_resolved (Case.sm3 (by norm_num) (by norm_num)) case_good caseLines_flux 1 2 3 (by decide) (by decide) 0
    (by norm_num [caseFW, caseLines]) (by show (3000:ℝ) * (1 + 1 / 2) ≤ 5000; norm_num) h 0.3 (-1) 0 0.7

/-- the pixel at 3000 Å, observed at 4500 Å, is seen: the filter sample at 5000 Å lies between its neighbours -/
theorem case_seen : Seen (n := 3) (m := 1) caseFW caseFT (fun k => caseLines k * (1 + 1 / 2)) 3 := by
  refine ⟨1, by norm_num [caseFT], by norm_num [caseFW, caseLines], by norm_num [caseFW, caseLines, Fin.last], ?_, ?_⟩
  · intro k hk; fin_cases k <;> first | (exact absurd hk (by decide)) | norm_num [caseFW, caseLines]
  · intro k hk; fin_cases k <;> first | (exact absurd hk (by decide)) | norm_num [caseFW, caseLines]

example : calc_obs_mag (n := 3) (m := 2) caseLines (Function.update (fun _ => 1) 3 (1 + 1)) caseFW caseFT (1 / 2) 0.3 (-1) 0 0.7 <
      calc_obs_mag (n := 3) (m := 2) caseLines (fun _ => 1) caseFW caseFT (1 / 2) 0.3 (-1) 0 0.7 :=
  (C161_magnitude_pixel (n := 3) (m := 1) (by norm_num) caseLines_resolved (Case.sm3 (by norm_num) (by norm_num)) case_good caseLines_flux one_pos 3 0.3 (-1) 0 0.7).1 case_seen

/-- the rate at 10 Gyr matters for the mass formed by 2 Gyr (the table times are 1, 10 and 100 Gyr), the rate at 100 Gyr does not -/
example : massFormed (n := 1) caseT caseS 1e-14 2 < massFormed (n := 1) caseT (Function.update caseS 1 5) 1e-14 2 :=
  (C161_mass_rate (n := 1) caseT_mono caseT_zero caseT_resolved (by norm_num) 1 (by norm_num [caseS]) two_pos).1
    (fun i hi => by fin_cases i <;> first | (exact absurd hi (by decide)) | norm_num [caseT])
example : massFormed (n := 1) caseT (Function.update caseS 2 5) 1e-14 2 = massFormed (n := 1) caseT caseS 1e-14 2 :=
  (C161_mass_rate (n := 1) caseT_mono caseT_zero caseT_resolved (by norm_num) 2 (by show max (1e-14:ℝ) 2 < 5; norm_num) two_pos).2
    ⟨1, by decide, by norm_num [caseT]⟩

/-- metallicity bins of width 1/2, scatter 0.05: no response between -3.05 and -2.95 -/
example : calc_lgmet_weights_from_lognormal_mdf (k := 2) (-3.05) 0.05 caseZ = calc_lgmet_weights_from_lognormal_mdf (k := 2) (-2.95) 0.05 caseZ := by
  refine (C161_metallicity_plateau (k := 2) caseZ (by norm_num) (by norm_num) (by norm_num) (by norm_num)).mpr fun i => ?_
  have e : ∀ i : Fin 4, get_bin_edges (n := 2) caseZ (-10) 10 i.succ.castSucc = -3.75 + (i : ℕ) * 0.5 := fun i => by
    induction i using Fin.lastCases with
    | last => rw [Fin.succ_last, edges_penult (n := 2)]; norm_num [caseZ, Fin.last]
    | cast j => rw [edges_interior (n := 2)]; fin_cases j <;> norm_num [caseZ]
  rw [e]
  fin_cases i <;> norm_num

example := C161_ssp_used (n := 1) (m := 0) (k := 2) (w := 2) (s := caseS) (flux := caseF) (μ := -2.6) case_sedInputs (by norm_num) (by norm_num) 2 1 0 (δ := 1) one_ne_zero

end

end Dsps.Props
