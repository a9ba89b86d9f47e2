import Verif.Lemmas.NdEw
import Verif.Lemmas.Lstsq
import Verif.Props.EquivalentWidth

/-!
C148: array shapes in the equivalent-width functions.  `Nd.Arr`, `Is0`…`Is2`, `Raises` as in `Verif/Nd.lean`; the functions
of `Dsps.NdEw` are those of `/repo/dsps/em_lines/equivalent_width.py` under numpy's shape rules; those of `Dsps.EquivalentWidth` are
the statically shaped functions the rest of the development is about.  `IsNum a x`: `a` is the scalar `x`, or an array of the
one entry `x`.
-/
namespace Dsps.Props
open Nd Py Spec Dsps.NdEw Dsps.NdCosmo Dsps.NdSed

section
variable {L : (n : ℕ) → EquivalentWidth.Lstsq n} {n : ℕ}

/-- the flux enters both products as the vector `f` -/
def FluxVec (fl : Arr ℝ) {N : ℕ} (f : Fin N → ℝ) : Prop := Is1 fl f ∨ ∃ c, IsNum fl c ∧ f = fun _ => c

theorem FluxVec.left {fl w : Arr ℝ} {N : ℕ} {f v : Fin N → ℝ} (h : FluxVec fl f) (hw : Is1 w v) :
    Ok (map2 (· * ·) fl w) (Is1 · fun i => f i * v i) := by
  rcases h with h | ⟨c, h, rfl⟩
  · exact map2_11 h hw
  · rcases h with h | h
    · exact map2_01 h hw
    · refine ⟨_, map2_shape (s := [N]) ?_, rfl, fun i => ?_⟩
      · rw [hw.1, h.1]
        by_cases e : N = 1
        · subst e; simp [bcShape, bcRev, Except.map]
        · simp [bcShape, bcRev, Except.map, e, Ne.symm e]
      · have e : bcIdx fl.shape [i.1] = [((0 : Fin 1) : ℕ)] := by simp [h.1, bcIdx]
        simp only [e, h.2, hw.1, bcIdx_one i.2, hw.2]

theorem FluxVec.right {fl w : Arr ℝ} {N : ℕ} {f v : Fin N → ℝ} (h : FluxVec fl f) (hw : Is1 w v) :
    Ok (map2 (· * ·) w fl) (Is1 · fun i => v i * f i) := by
  rcases h with h | ⟨c, h, rfl⟩
  · exact map2_11 hw h
  · exact map2_1num hw h

/-- one spectrum, any array of line centres -/
theorem decomp_1 {wv fl llo lmid lhi a b c d : Arr ℝ} {u f : Fin (n + 1) → ℝ} {xlo xhi xa xb xc xd : ℝ}
    (hw : Is1 wv u) (hf : FluxVec fl f) (hlo : IsNum llo xlo) (hhi : IsNum lhi xhi) (ha : IsNum a xa)
    (hb : IsNum b xb) (hc : IsNum c xc) (hd : IsNum d xd) {s : List ℕ} {mid : List ℕ → ℝ} (hmid : IsArr lmid s mid) :
    Ok (continuum_line_decomp_kern L wv fl llo lmid lhi a b c d) fun r =>
      IsArr r.1 s (fun t => (EquivalentWidth.continuum_line_decomp_kern (L (n + 1)) u f xlo (mid t) xhi xa xb xc xd).1) ∧
      (∀ m, Is0 r.2.1 (EquivalentWidth.continuum_line_decomp_kern (L (n + 1)) u f xlo m xhi xa xb xc xd).2.1) ∧
      IsArr r.2.2.1 s (fun t => (EquivalentWidth.continuum_line_decomp_kern (L (n + 1)) u f xlo (mid t) xhi xa xb xc xd).2.2.1) ∧
      ∀ m, Is1 r.2.2.2 (EquivalentWidth.continuum_line_decomp_kern (L (n + 1)) u f xlo m xhi xa xb xc xd).2.2.2 := by
  refine (quadfit_ok hw ha hb hc hd).bind fun qw hqw => ?_
  refine (fit_1 hw (hf.left hqw) hqw).bind fun co hco => (unpack_1 hco).bind fun p hp => ?_
  obtain ⟨c2, c1, c0⟩ := p
  obtain ⟨h2, h1, h0⟩ := hp
  simp only at h2 h1 h0 ⊢
  refine (map2_0a h1 hmid).bind fun e1 he1 => (map2_0a h0 he1).bind fun e2 he2 => ?_
  refine (map2_0a h2 (hmid.map (· ^ 2))).bind fun e3 he3 => (map2_aa he2 he3).bind fun str hstr => ?_
  refine (intw_ok hw hlo hhi).bind fun iw hiw => ?_
  refine (map2_01 h1 hw).bind fun g1 hg1 => (map2_01 h0 hg1).bind fun g2 hg2 => (map2_01 h2 hw).bind fun g3 hg3 => ?_
  refine (map2_11 hg3 hw).bind fun g4 hg4 => (map2_11 hg2 hg4).bind fun g5 hg5 => (map2_11 hiw hg5).bind fun ci hci => ?_
  refine (hf.right hiw).bind fun si hsi => ?_
  refine (trapezoid_1 hci hw).bind fun I1 hI1 => (trapezoid_1 hsi hw).bind fun I2 hI2 => (map2_00 hI2 hI1).bind fun tot htot => ?_
  refine (map2_0a htot hstr).bind fun ew hew => .pure ⟨?_, fun m => ?_, ?_, fun m => ?_⟩
  · exact hew
  · exact htot
  · exact hstr
  · exact hco

/-- C148: one spectrum, all arguments as documented: `wave` and `flux` one-dimensional of equal length, limits and line centre
scalars (the limits may also be arrays of one entry): a scalar equivalent width and line flux. -/
theorem C148_documented {wv fl llo lmid lhi a b c d : Arr ℝ} {u f : Fin (n + 1) → ℝ} {xlo m xhi xa xb xc xd : ℝ}
    (hw : Is1 wv u) (hf : Is1 fl f) (hlo : IsNum llo xlo) (hmid : Is0 lmid m) (hhi : IsNum lhi xhi) (ha : IsNum a xa)
    (hb : IsNum b xb) (hc : IsNum c xc) (hd : IsNum d xd) :
    (∃ r, ew_kernel L wv fl llo lmid lhi a b c d = .ok r ∧
      Is0 r.1 (EquivalentWidth.ew_kernel (L (n + 1)) u f xlo m xhi xa xb xc xd).1 ∧
      Is0 r.2 (EquivalentWidth.ew_kernel (L (n + 1)) u f xlo m xhi xa xb xc xd).2) ∧
    ∃ r, continuum_line_decomp_kern L wv fl llo lmid lhi a b c d = .ok r ∧
      Is0 r.1 (EquivalentWidth.continuum_line_decomp_kern (L (n + 1)) u f xlo m xhi xa xb xc xd).1 ∧
      Is0 r.2.1 (EquivalentWidth.continuum_line_decomp_kern (L (n + 1)) u f xlo m xhi xa xb xc xd).2.1 ∧
      Is0 r.2.2.1 (EquivalentWidth.continuum_line_decomp_kern (L (n + 1)) u f xlo m xhi xa xb xc xd).2.2.1 ∧
      Is1 r.2.2.2 (EquivalentWidth.continuum_line_decomp_kern (L (n + 1)) u f xlo m xhi xa xb xc xd).2.2.2 := by
  obtain ⟨r, hr, h1, h2, h3, h4⟩ := decomp_1 (L := L) hw (Or.inl hf) hlo hhi ha hb hc hd (Is0.isArr hmid)
  refine ⟨⟨(r.1, r.2.1), by rw [ew_eq, hr]; rfl, ?_, ?_⟩, r, hr, h1.is0, h2 m, h3.is0, h4 m⟩
  · exact h1.is0
  · exact h2 m

/-- C148: a flux that is a number, or an array of one number, is the spectrum of that constant value. -/
theorem C148_constant_flux {wv fl llo lmid lhi a b c d : Arr ℝ} {u : Fin (n + 1) → ℝ} {x xlo m xhi xa xb xc xd : ℝ}
    (hw : Is1 wv u) (hf : IsNum fl x) (hlo : IsNum llo xlo) (hmid : Is0 lmid m) (hhi : IsNum lhi xhi) (ha : IsNum a xa)
    (hb : IsNum b xb) (hc : IsNum c xc) (hd : IsNum d xd) :
    ∃ r, ew_kernel L wv fl llo lmid lhi a b c d = .ok r ∧
      Is0 r.1 (EquivalentWidth.ew_kernel (L (n + 1)) u (fun _ => x) xlo m xhi xa xb xc xd).1 ∧
      Is0 r.2 (EquivalentWidth.ew_kernel (L (n + 1)) u (fun _ => x) xlo m xhi xa xb xc xd).2 := by
  obtain ⟨r, hr, h1, h2, h3, h4⟩ := decomp_1 (L := L) hw (Or.inr ⟨x, hf, rfl⟩) hlo hhi ha hb hc hd (Is0.isArr hmid)
  exact ⟨(r.1, r.2.1), by rw [ew_eq, hr]; rfl, h1.is0, h2 m⟩

/-- C148: an array of line centres gives one equivalent width per centre and one line flux in all. -/
theorem C148_line_centres {wv fl llo lmid lhi a b c d : Arr ℝ} {u f : Fin (n + 1) → ℝ} {k : ℕ} {m : Fin k → ℝ}
    {xlo xhi xa xb xc xd : ℝ} (hw : Is1 wv u) (hf : Is1 fl f) (hlo : IsNum llo xlo) (hmid : Is1 lmid m) (hhi : IsNum lhi xhi)
    (ha : IsNum a xa) (hb : IsNum b xb) (hc : IsNum c xc) (hd : IsNum d xd) :
    ∃ r, ew_kernel L wv fl llo lmid lhi a b c d = .ok r ∧
      Is1 r.1 (fun i => (EquivalentWidth.ew_kernel (L (n + 1)) u f xlo (m i) xhi xa xb xc xd).1) ∧
      ∀ i, Is0 r.2 (EquivalentWidth.ew_kernel (L (n + 1)) u f xlo (m i) xhi xa xb xc xd).2 := by
  have hm : IsArr lmid [k] lmid.dat := ⟨hmid.1, fun _ _ => rfl⟩
  obtain ⟨r, hr, h1, h2, h3, h4⟩ := decomp_1 (L := L) hw (Or.inl hf) hlo hhi ha hb hc hd hm
  refine ⟨(r.1, r.2.1), by rw [ew_eq, hr]; rfl, h1.is1.congr fun i => ?_, fun i => h2 (m i)⟩
  rw [hmid.2 i]
  rfl

/-! ### Two-dimensional flux -/

/-- an `n × n` array, or a column of `n` entries that numpy repeats `n` times -/
def FluxSquare (fl : Arr ℝ) {N : ℕ} (Y : Fin N → Fin N → ℝ) : Prop :=
  Is2 fl Y ∨ ∃ f : Fin N → ℝ, Is2 fl (fun i (_ : Fin 1) => f i) ∧ Y = fun i _ => f i

theorem FluxSquare.left {fl w : Arr ℝ} {N : ℕ} {Y : Fin N → Fin N → ℝ} {v : Fin N → ℝ} (h : FluxSquare fl Y) (hw : Is1 w v) :
    Ok (map2 (· * ·) fl w) (Is2 · fun i j => Y i j * v j) := by
  rcases h with h | ⟨f, h, rfl⟩
  · exact map2_21 h hw
  · exact map2_c1 h hw

theorem FluxSquare.right {fl w : Arr ℝ} {N : ℕ} {Y : Fin N → Fin N → ℝ} {v : Fin N → ℝ} (h : FluxSquare fl Y) (hw : Is1 w v) :
    Ok (map2 (· * ·) w fl) (Is2 · fun i j => v j * Y i j) := by
  rcases h with h | ⟨f, h, rfl⟩
  · exact map2_12 hw h
  · exact map2_1c hw h

theorem decomp_2 {wv fl llo lmid lhi a b c d : Arr ℝ} {u : Fin (n + 1) → ℝ} {Y : Fin (n + 1) → Fin (n + 1) → ℝ}
    {xlo m xhi xa xb xc xd : ℝ} (hw : Is1 wv u) (hf : FluxSquare fl Y) (hlo : IsNum llo xlo) (hmid : Is0 lmid m)
    (hhi : IsNum lhi xhi) (ha : IsNum a xa) (hb : IsNum b xb) (hc : IsNum c xc) (hd : IsNum d xd) :
    Ok (continuum_line_decomp_kern L wv fl llo lmid lhi a b c d) fun r =>
      ∃ C : Fin 3 → Fin (n + 1) → ℝ, (∀ k j, C k j =
        L (n + 1) (design u fun i => EquivalentWidth.get_quadfit_weights (u i) xa xb xc xd)
          (fun i => Y i j * EquivalentWidth.get_quadfit_weights (u j) xa xb xc xd) k /
          colScale u (fun i => EquivalentWidth.get_quadfit_weights (u i) xa xb xc xd) k) ∧
      Is1 r.1 (fun i => (Utils.trapz u (fun j => EquivalentWidth.get_integration_weights (u j) xlo xhi * Y i j) -
        Utils.trapz u (fun j => EquivalentWidth.get_integration_weights (u j) xlo xhi *
          (C 2 j + C 1 j * u j + C 0 j * u j * u j))) / (C 2 i + C 1 i * m + C 0 i * m ^ 2)) ∧
      Is1 r.2.1 (fun i => Utils.trapz u (fun j => EquivalentWidth.get_integration_weights (u j) xlo xhi * Y i j) -
        Utils.trapz u (fun j => EquivalentWidth.get_integration_weights (u j) xlo xhi *
          (C 2 j + C 1 j * u j + C 0 j * u j * u j))) ∧
      Is1 r.2.2.1 (fun i => C 2 i + C 1 i * m + C 0 i * m ^ 2) := by
  refine (quadfit_ok hw ha hb hc hd).bind fun qw hqw => ?_
  refine (fit_2 hw (hf.left hqw) hqw).bind fun co hco => (unpack_2 hco).bind fun p hp => ?_
  obtain ⟨c2, c1, c0⟩ := p
  obtain ⟨h2, h1, h0⟩ := hp
  simp only at h2 h1 h0 ⊢
  refine (map2_10 h1 hmid).bind fun e1 he1 => (map2_11 h0 he1).bind fun e2 he2 => ?_
  refine (map2_10 h2 (hmid.map (· ^ 2))).bind fun e3 he3 => (map2_11 he2 he3).bind fun str hstr => ?_
  refine (intw_ok hw hlo hhi).bind fun iw hiw => ?_
  refine (map2_11 h1 hw).bind fun g1 hg1 => (map2_11 h0 hg1).bind fun g2 hg2 => (map2_11 h2 hw).bind fun g3 hg3 => ?_
  refine (map2_11 hg3 hw).bind fun g4 hg4 => (map2_11 hg2 hg4).bind fun g5 hg5 => (map2_11 hiw hg5).bind fun ci hci => ?_
  refine (hf.right hiw).bind fun si hsi => ?_
  refine (trapezoid_1 hci hw).bind fun I1 hI1 => (trapezoid_rows_vec (is2_rows hsi) hw).bind fun I2 hI2 => ?_
  have hI2' : Is1 I2 fun i => Utils.trapz u (fun j => EquivalentWidth.get_integration_weights (u j) xlo xhi * Y i j) := by
    refine hI2.is1.congr fun i => ?_
    simp only [Utils.trapz]
    congr 1
    funext j
    exact dif_pos i.2
  refine (map2_10 hI2' hI1).bind fun tot htot => (map2_11 htot hstr).bind fun ew hew => .pure ⟨_, fun k j => rfl, ?_, ?_, ?_⟩
  · exact hew
  · exact htot
  · exact hstr

theorem lstsq_zero {N : ℕ} {l : EquivalentWidth.Lstsq N} (hl : IsLstsq l) (A : Matrix (Fin N) (Fin 3) ℝ) : l A (fun _ => 0) = 0 := by
  have h := Lemmas.lstsq_linear hl A 0 0 0 0
  simp only [smul_zero, add_zero, zero_smul] at h
  exact h

open Classical in
/-- C148: spectra cannot be passed as a batch.  A square array of fluxes — as many spectra as wavelengths — or a spectrum passed as a
column is accepted without error, one number per row comes back, but no continuum is subtracted: if the line window and the
continuum windows share no sample, the "line flux" of row `i` is the integral of the whole flux of row `i` over the line window,
and the continuum strength reported for row `i` is zero unless the `i`-th wavelength happens to lie in a continuum window. -/
theorem C148_square_flux (hL : ∀ N, IsLstsq (L N)) {wv fl llo lmid lhi a b c d : Arr ℝ} {u : Fin (n + 1) → ℝ}
    {Y : Fin (n + 1) → Fin (n + 1) → ℝ} {xlo m xhi xa xb xc xd : ℝ} (hw : Is1 wv u)
    (hf : Is2 fl Y ∨ ∃ f : Fin (n + 1) → ℝ, Is2 fl (fun i (_ : Fin 1) => f i) ∧ Y = fun i _ => f i)
    (hlo : IsNum llo xlo) (hmid : Is0 lmid m)
    (hhi : IsNum lhi xhi) (ha : IsNum a xa) (hb : IsNum b xb) (hc : IsNum c xc) (hd : IsNum d xd)
    (hdis : ∀ j, xlo ≤ u j → u j ≤ xhi → ¬ ((xa ≤ u j ∧ u j ≤ xb) ∨ (xc ≤ u j ∧ u j ≤ xd))) :
    (∃ r, ew_kernel L wv fl llo lmid lhi a b c d = .ok r ∧ r.1.shape = [n + 1] ∧
      Is1 r.2 (fun i => Utils.trapz u fun j => if xlo ≤ u j ∧ u j ≤ xhi then Y i j else 0)) ∧
    ∃ r, continuum_line_decomp_kern L wv fl llo lmid lhi a b c d = .ok r ∧ r.1.shape = [n + 1] ∧
      Is1 r.2.1 (fun i => Utils.trapz u fun j => if xlo ≤ u j ∧ u j ≤ xhi then Y i j else 0) ∧
      r.2.2.1.shape = [n + 1] ∧
      ∀ i : Fin (n + 1), ¬ ((xa ≤ u i ∧ u i ≤ xb) ∨ (xc ≤ u i ∧ u i ≤ xd)) → r.2.2.1.dat [i.1] = 0 := by
  obtain ⟨r, hr, C, hC, h1, h2, h3⟩ := decomp_2 (L := L) hw hf hlo hmid hhi ha hb hc hd
  have hq : ∀ j, ¬ ((xa ≤ u j ∧ u j ≤ xb) ∨ (xc ≤ u j ∧ u j ≤ xd)) → ∀ k, C k j = 0 := by
    intro j hj k
    have e : EquivalentWidth.get_quadfit_weights (u j) xa xb xc xd = 0 := by
      simp only [EquivalentWidth.get_quadfit_weights]
      exact if_neg hj
    rw [hC]
    simp only [e, mul_zero]
    rw [lstsq_zero (hL _)]
    simp
  have hi : ∀ (x : ℝ) (v : ℝ), EquivalentWidth.get_integration_weights x xlo xhi * v = if xlo ≤ x ∧ x ≤ xhi then v else 0 := by
    intro x v
    simp only [EquivalentWidth.get_integration_weights, ge_iff_le]
    split_ifs <;> simp
  have ht : Is1 r.2.1 (fun i => Utils.trapz u fun j => if xlo ≤ u j ∧ u j ≤ xhi then Y i j else 0) := by
    refine h2.congr fun i => ?_
    have e : (fun j => EquivalentWidth.get_integration_weights (u j) xlo xhi * (C 2 j + C 1 j * u j + C 0 j * u j * u j)) = fun _ => 0 := by
      funext j
      rw [hi]
      split_ifs with h
      · simp [hq j (hdis j h.1 h.2)]
      · rfl
    have z : Utils.trapz u (fun _ => 0) = 0 := by simp [Lemmas.trapz_eq]
    rw [e, z, sub_zero]
    congr 1
    funext j
    exact hi _ _
  refine ⟨⟨(r.1, r.2.1), by rw [ew_eq, hr]; rfl, h1.1, ht⟩, r, hr, h1.1, ht, h3.1, fun i hi => ?_⟩
  rw [h3.2 i]
  simp [hq i hi]

/-- C148: which shapes of `flux` are accepted, for a one-dimensional `wave` of at least two samples: a number, one number in an
array, a spectrum of the same length — and, wrongly, a column or a square array.  In particular a single spectrum with a leading
batch axis, shape `(1, n)`, and every other batch raise. -/
theorem C148_accepted_iff {wv fl llo lmid lhi a b c d : Arr ℝ} {u : Fin (n + 2) → ℝ} {xlo m xhi xa xb xc xd : ℝ} (hw : Is1 wv u)
    (hlo : IsNum llo xlo) (hmid : Is0 lmid m) (hhi : IsNum lhi xhi) (ha : IsNum a xa) (hb : IsNum b xb) (hc : IsNum c xc)
    (hd : IsNum d xd) :
    ((∃ r, ew_kernel L wv fl llo lmid lhi a b c d = .ok r) ↔
      fl.shape = [] ∨ fl.shape = [1] ∨ fl.shape = [n + 2] ∨ fl.shape = [n + 2, 1] ∨ fl.shape = [n + 2, n + 2]) ∧
    ((∃ r, continuum_line_decomp_kern L wv fl llo lmid lhi a b c d = .ok r) ↔
      fl.shape = [] ∨ fl.shape = [1] ∨ fl.shape = [n + 2] ∨ fl.shape = [n + 2, 1] ∨ fl.shape = [n + 2, n + 2]) := by
  have key : (∃ r, continuum_line_decomp_kern L wv fl llo lmid lhi a b c d = .ok r) ↔ Accepted (n + 2) fl.shape := by
    constructor
    · intro ⟨r, hr⟩
      by_contra hn
      have : Raises (continuum_line_decomp_kern L wv fl llo lmid lhi a b c d) :=
        (quadfit_ok hw ha hb hc hd).raises fun qw hqw => Raises.bind (fit_raises hw hqw (by omega) hn)
      obtain ⟨e, he⟩ := this
      rw [hr] at he
      cases he
    · have go1 : ∀ f : Fin (n + 2) → ℝ, FluxVec fl f → ∃ r, continuum_line_decomp_kern L wv fl llo lmid lhi a b c d = .ok r :=
        fun f hf => (decomp_1 (L := L) hw hf hlo hhi ha hb hc hd (Is0.isArr hmid)).imp fun _ h => h.1
      have go2 : ∀ Y : Fin (n + 2) → Fin (n + 2) → ℝ, FluxSquare fl Y → ∃ r, continuum_line_decomp_kern L wv fl llo lmid lhi a b c d = .ok r :=
        fun Y hf => (decomp_2 (L := L) hw hf hlo hmid hhi ha hb hc hd).imp fun _ h => h.1
      rintro (h | h | h | h | h)
      · exact go1 _ (Or.inr ⟨_, Or.inl ⟨h, rfl⟩, rfl⟩)
      · exact go1 _ (Or.inr ⟨fl.dat [0], Or.inr ⟨h, fun i => by simp⟩, rfl⟩)
      · exact go1 _ (Or.inl ⟨h, fun _ => rfl⟩)
      · exact go2 _ (Or.inr ⟨fun i => fl.dat [i.1, 0], ⟨h, fun i j => by simp⟩, rfl⟩)
      · exact go2 _ (Or.inl ⟨h, fun _ _ => rfl⟩)
  refine ⟨?_, key⟩
  rw [show (fl.shape = [] ∨ fl.shape = [1] ∨ fl.shape = [n + 2] ∨ fl.shape = [n + 2, 1] ∨ fl.shape = [n + 2, n + 2]) ↔
    Accepted (n + 2) fl.shape from Iff.rfl, ← key, ew_eq]
  constructor
  · rintro ⟨r, hr⟩
    rcases hk : continuum_line_decomp_kern L wv fl llo lmid lhi a b c d with e | q
    · rw [hk] at hr; cases hr
    · exact ⟨q, rfl⟩
  · rintro ⟨r, hr⟩
    exact ⟨_, by rw [hr]; rfl⟩

/-- C148: wavelengths that are not one-dimensional raise, whatever the rest. -/
theorem C148_wave_raises {wv : Arr ℝ} (hw : ∀ N, wv.shape ≠ [N]) (fl llo lmid lhi a b c d : Arr ℝ) :
    Raises (ew_kernel L wv fl llo lmid lhi a b c d) ∧ Raises (continuum_line_decomp_kern L wv fl llo lmid lhi a b c d) := by
  have hv : Raises (vander3 wv) := by
    unfold vander3
    rcases h : wv.shape with _ | ⟨N, _ | _⟩
    · exact ⟨_, rfl⟩
    · exact absurd h (hw N)
    · exact ⟨_, rfl⟩
  have : Raises (continuum_line_decomp_kern L wv fl llo lmid lhi a b c d) := Raises.bind' fun q _ => Raises.bind (Raises.bind hv)
  refine ⟨?_, this⟩
  obtain ⟨e, he⟩ := this
  exact ⟨e, by rw [ew_eq, he]; rfl⟩

/-- C148: limits cannot be vectorised either: if any of the six window limits is an array of `k` values, neither 1 nor the number
of wavelengths, the call raises, whatever the rest. -/
theorem C148_limits_raise {wv llo lhi a b c d : Arr ℝ} {N k : ℕ} (hw : wv.shape = [N]) (hN : N ≠ 1) (hk1 : k ≠ 1) (hkN : k ≠ N)
    (hk : ∃ l ∈ [llo, lhi, a, b, c, d], l.shape = [k]) (fl lmid : Arr ℝ) :
    Raises (ew_kernel L wv fl llo lmid lhi a b c d) ∧ Raises (continuum_line_decomp_kern L wv fl llo lmid lhi a b c d) := by
  have hr : ∀ (op : ℝ → ℝ → Prop) (l : Arr ℝ), l.shape = [k] → Raises (map2 op wv l) := by
    intro op l hl
    refine map2_raises ?_
    rw [hw, hl]
    refine ⟨.typeError, ?_⟩
    simp [bcShape, bcRev, Except.map, hN, hk1, Ne.symm hkN]
  have this : Raises (continuum_line_decomp_kern L wv fl llo lmid lhi a b c d) := by
    have hq : (∃ l ∈ [a, b, c, d], l.shape = [k]) → Raises (get_quadfit_weights wv a b c d) := by
      rintro ⟨l, hl, hs⟩
      simp only [List.mem_cons, List.not_mem_nil, or_false] at hl
      rcases hl with rfl | rfl | rfl | rfl
      · exact Raises.bind (hr _ _ hs)
      · exact Raises.bind' fun _ _ => Raises.bind (hr _ _ hs)
      · exact Raises.bind' fun _ _ => Raises.bind' fun _ _ => Raises.bind' fun _ _ => Raises.bind (hr _ _ hs)
      · exact Raises.bind' fun _ _ => Raises.bind' fun _ _ => Raises.bind' fun _ _ => Raises.bind' fun _ _ => Raises.bind (hr _ _ hs)
    have hi : (∃ l ∈ [llo, lhi], l.shape = [k]) → Raises (get_integration_weights wv llo lhi) := by
      rintro ⟨l, hl, hs⟩
      simp only [List.mem_cons, List.not_mem_nil, or_false] at hl
      rcases hl with rfl | rfl
      · exact Raises.bind (hr _ _ hs)
      · exact Raises.bind' fun _ _ => Raises.bind (hr _ _ hs)
    by_cases h : ∃ l ∈ [a, b, c, d], l.shape = [k]
    · exact Raises.bind (hq h)
    · have h' : ∃ l ∈ [llo, lhi], l.shape = [k] := by
        obtain ⟨l, hl, hs⟩ := hk
        refine ⟨l, ?_, hs⟩
        by_contra hn
        refine h ⟨l, ?_, hs⟩
        simp only [List.mem_cons, List.not_mem_nil, or_false] at hl hn ⊢
        tauto
      refine Raises.bind' fun _ _ => Raises.bind' fun _ _ => Raises.bind' fun p _ => ?_
      obtain ⟨c2, c1, c0⟩ := p
      exact Raises.bind' fun _ _ => Raises.bind' fun _ _ => Raises.bind' fun _ _ => Raises.bind' fun _ _ => Raises.bind (hi h')
  refine ⟨?_, this⟩
  obtain ⟨e, he⟩ := this
  exact ⟨e, by rw [ew_eq, he]; rfl⟩

end

/-! ### Concrete cases -/

/-- an array with the entries `f`, of shape `(N,)` -/
def vecArr {N : ℕ} (f : ℕ → ℝ) : Arr ℝ := ⟨[N], fun t => f (t.headD 0)⟩

/-- an array of shape `(N, K)` -/
def matArr (N K : ℕ) (f : ℕ → ℕ → ℝ) : Arr ℝ := ⟨[N, K], fun t => f (t.headD 0) (t.tail.headD 0)⟩

theorem is1_vecArr (N : ℕ) (f : ℕ → ℝ) : Is1 (vecArr (N := N) f) fun i : Fin N => f i := ⟨rfl, fun _ => rfl⟩

theorem is2_matArr (N K : ℕ) (f : ℕ → ℕ → ℝ) : Is2 (matArr N K f) fun (i : Fin N) (j : Fin K) => f i j := ⟨rfl, fun _ _ => rfl⟩

theorem isNum_scal (x : ℝ) : IsNum (scal x) x := Or.inl (Is0.scal x)

-- five wavelengths 1, …, 5, a line at 3 between continuum windows [1, 2] and [4, 5]: one spectrum
example (L : (n : ℕ) → EquivalentWidth.Lstsq n) : ∃ r, ew_kernel L (vecArr (N := 5) fun i => i + 1) (vecArr (N := 5) fun i => if i = 2 then 4 else 1)
    (scal 2.5) (scal 3) (scal 3.5) (scal 1) (scal 2) (scal 4) (scal 5) = .ok r ∧ r.1.shape = [] := by
  obtain ⟨⟨r, hr, h, -⟩, -⟩ := C148_documented (L := L) (n := 4) (is1_vecArr 5 fun i => i + 1) (is1_vecArr 5 fun i => if i = 2 then 4 else 1)
    (isNum_scal 2.5) (Is0.scal 3) (isNum_scal 3.5) (isNum_scal 1) (isNum_scal 2) (isNum_scal 4) (isNum_scal 5)
  exact ⟨r, hr, h.1⟩

-- five spectra on those wavelengths, all with continuum 1 and a line at the third sample: the "line flux" of each contains the
-- continuum
example (L : (n : ℕ) → EquivalentWidth.Lstsq n) (hL : ∀ N, IsLstsq (L N)) :
    ∃ r, ew_kernel L (vecArr (N := 5) fun i => i + 1) (matArr 5 5 fun _ j => if j = 2 then 4 else 1)
      (scal 2.5) (scal 3) (scal 3.5) (scal 1) (scal 2) (scal 4) (scal 5) = .ok r ∧ r.1.shape = [5] ∧ r.2.dat [0] = 4 := by
  have := (C148_square_flux (n := 4) hL (is1_vecArr 5 fun i => i + 1)
    (Or.inl (is2_matArr 5 5 fun _ j => if j = 2 then 4 else 1))
    (isNum_scal 2.5) (Is0.scal 3) (isNum_scal 3.5) (isNum_scal 1) (isNum_scal 2) (isNum_scal 4) (isNum_scal 5) ?_).1
  · obtain ⟨r, hr, h, h'⟩ := this
    refine ⟨r, hr, h, ?_⟩
    have := h'.2 0
    simp only [Fin.val_zero] at this
    rw [this, Lemmas.trapz_eq]
    simp [Fin.sum_univ_succ]
    norm_num
  · intro j h1 h2
    fin_cases j <;> first | (norm_num at h1; done) | (norm_num at h2; done) | norm_num

-- the shape of a single spectrum with a batch axis raises
example (L : (n : ℕ) → EquivalentWidth.Lstsq n) : ¬ ∃ r, ew_kernel L (vecArr (N := 5) fun i => i + 1) (matArr 1 5 fun _ _ => 1)
    (scal 2.5) (scal 3) (scal 3.5) (scal 1) (scal 2) (scal 4) (scal 5) = .ok r := by
  rw [(C148_accepted_iff (L := L) (n := 3) (is1_vecArr 5 fun i => i + 1)
    (isNum_scal 2.5) (Is0.scal 3) (isNum_scal 3.5) (isNum_scal 1) (isNum_scal 2) (isNum_scal 4) (isNum_scal 5)).1]
  simp [matArr]

-- three lines at once
example (L : (n : ℕ) → EquivalentWidth.Lstsq n) (fl : Arr ℝ) : Raises (ew_kernel L (vecArr (N := 5) fun i => i + 1) fl
    (vecArr (N := 3) fun i => i + 1.5) (vecArr (N := 3) fun i => i + 2) (vecArr (N := 3) fun i => i + 2.5) (scal 1) (scal 2) (scal 4) (scal 5)) :=
  (C148_limits_raise (N := 5) (k := 3) rfl (by norm_num) (by norm_num) (by norm_num) ⟨vecArr (N := 3) fun i => i + 1.5, by simp, rfl⟩ fl _).1

example (L : (n : ℕ) → EquivalentWidth.Lstsq n) (fl x : Arr ℝ) : Raises (ew_kernel L (matArr 2 5 fun _ j => j) fl x x x x x x x) :=
  (C148_wave_raises (fun N => by simp [matArr]) fl x x x x x x x).1

end Dsps.Props
