import Verif.Lemmas.RangePhot
import Verif.Lemmas.Age

/-! Property C163, cosmology: no overflow or underflow in distances and times.  The programs are run on floats with the exponent range of a format (`Verif/Range.lean`). -/
namespace Dsps.Props
open XF Range Dsps.Lemmas Spec

/-- the range contains that of IEEE single precision -/
structure Wide (R : Range) : Prop where
  tiny : R.tiny ≤ 1.2e-38
  max : 3.4e38 ≤ R.max

theorem wide32 : Wide float32 := ⟨by show (2⁻¹:ℝ) ^ 126 ≤ _; norm_num, by show _ ≤ (2 - 2⁻¹ ^ 23) * (2:ℝ) ^ 127; norm_num⟩
theorem wide64 : Wide float64 := ⟨float64_tiny_le.trans (by rw [zpow_neg]; refine (inv_anti₀ (by norm_num) (?_ : (10:ℝ) ^ (38:ℤ) ≤ _)).trans (by norm_num); exact zpow_le_zpow_right₀ (by norm_num) (by norm_num)),
  le_trans (le_trans (by norm_num : (3.4e38:ℝ) ≤ (10:ℝ) ^ (39:ℤ)) (zpow_le_zpow_right₀ (by norm_num) (by norm_num))) float64_max_ge⟩

variable {R : Range} {a b : Ranged R} {lo hi lo' hi' y : ℝ}

theorem Wide.span (h : Wide R) (h1 : lo = 0 ∨ 1.2e-38 ≤ lo) (h2 : hi ≤ 3.4e38) : Span R lo hi := ⟨h1.imp id (h.tiny.trans ·), h2.trans h.max⟩
theorem Wide.in (h : Wide R) (h1 : 1.2e-38 ≤ |y|) (h2 : |y| ≤ 3.4e38) : R.In y := ⟨h.tiny.trans h1, h2.trans h.max⟩
theorem Wide.in_pos (h : Wide R) (h1 : 1.2e-38 ≤ y) (h2 : y ≤ 3.4e38) : R.In y := by
  have : |y| = y := abs_of_pos (lt_of_lt_of_le (by norm_num) h1)
  exact h.in (by rwa [this]) (by rwa [this])
theorem Wide.lit (h : Wide R) (h1 : 1.2e-38 ≤ y) (h2 : y ≤ 3.4e38) : Is (Flt.lit y : Ranged R) y := is_lit (Or.inr (h.in_pos h1 h2))

/-- forced into the range a number moves by less than the smallest normal number -/
theorem fit_near {c : XF} (h : Rep c y) (hy : |y| ≤ R.max) : ∃ y', Rep (R.fit c) y' ∧ |y' - y| ≤ R.tiny ∧ |y'| ≤ |y| := by
  obtain ⟨y', hr, rfl | ⟨rfl, ht⟩⟩ := fit_rep h hy
  · exact ⟨_, hr, by simp [R.tiny_pos.le], le_rfl⟩
  · exact ⟨0, hr, by rw [zero_sub, abs_neg]; exact ht.le, by simp⟩

/-- **Specification.**  The cosmological parameters considered: matter between 1% and 100%, `w0` and `wa` at most 10 in magnitude with `w0 + wa ≤ 0` (dark energy does not dominate
early times), `h` between 0.01 and 100. -/
structure OrdinaryCosmo (Om0 w0 wa h : ℝ) : Prop where
  om : 0.01 ≤ Om0 ∧ Om0 ≤ 1
  hw0 : |w0| ≤ 10
  hwa : |wa| ≤ 10
  early : w0 + wa ≤ 0
  hh : 0.01 ≤ h ∧ h ≤ 100

theorem exp30 : Real.exp 30 ≤ 1.1e13 := by
  have h := Real.exp_one_lt_d9
  have e : Real.exp 30 = Real.exp 1 ^ 30 := by rw [← Real.exp_nat_mul]; norm_num
  rw [e]
  exact (pow_le_pow_left₀ (Real.exp_pos 1).le h.le 30).trans (by norm_num)

variable {Om0 w0 wa h : ℝ}

/-- the exponent of the dark energy density -/
theorem de_exponent (hR : Wide R) (hw : |w0| ≤ 10) (hw' : |wa| ≤ 10) (he : w0 + wa ≤ 0) :
    ∃ e, Rep (-(Flt.lit 3.0) * (Flt.lit 1.0 + Flt.lit w0 + Flt.lit wa) : Ranged R).x e ∧ -6 ≤ e ∧ e ≤ 66 := by
  have hM := hR.max
  have ht : R.tiny ≤ 0.01 := hR.tiny.trans (by norm_num)
  obtain ⟨y0, hy0, d0, m0⟩ := fit_near (R := R) (Rep.fin w0) (by linarith)
  obtain ⟨ya, hya, da, ma⟩ := fit_near (R := R) (Rep.fin wa) (by linarith)
  have h1 : Is (Flt.lit 1.0 : Ranged R) 1.0 := hR.lit (by norm_num) (by norm_num)
  have b1 : |1.0 + y0| ≤ 12 := (abs_add_le _ _).trans (by norm_num; linarith)
  obtain ⟨v1, hv1, d1, m1⟩ := fit_near (R := R) (h1.1.add hy0) (by linarith)
  have b2 : |v1 + ya| ≤ 22 := (abs_add_le _ _).trans (by linarith)
  obtain ⟨v2, hv2, d2, m2⟩ := fit_near (R := R) (hv1.add hya) (by linarith)
  have h3 : Is (Flt.lit 3.0 : Ranged R) 3.0 := hR.lit (by norm_num) (by norm_num)
  have b3 : |(-3.0) * v2| ≤ 66 := by
    rw [abs_mul]; norm_num; linarith
  obtain ⟨e, he', hee⟩ := fit_rep (R := R) (h3.1.neg.mul hv2) (by linarith)
  refine ⟨e, he', ?_⟩
  rw [abs_le] at d0 da d1 d2 b3
  have hv : v2 ≤ 2 := by norm_num at d0 da d1 d2 ⊢; linarith
  rcases hee with rfl | ⟨rfl, -⟩
  · norm_num at b3 ⊢; constructor <;> linarith
  · norm_num

theorem rep_pow {u v : XF} {x e : ℝ} (hu : Rep u x) (hv : Rep v e) (hx : 0 < x) : Rep (XFUtils.pow u v) (x ^ e) := by
  rcases hu with rfl | ⟨rfl, rfl⟩
  · rcases hv with rfl | ⟨rfl, rfl⟩
    · show Rep (if 0 < x then _ else _) _
      rw [if_pos hx]; exact Rep.fin _
    · show Rep (if 0 < x then _ else _) _
      rw [if_pos hx, Real.rpow_zero]; exact Rep.fin 1
  · exact absurd hx (lt_irrefl _)

/-- the dark energy density relative to today, up to redshift 1000 -/
theorem de_btn (hR : Wide R) (hw : |w0| ≤ 10) (hw' : |wa| ≤ 10) (he : w0 + wa ≤ 0) {z : Ranged R} (hz : Btn 0 1000 z) :
    Btn 0 2e31 (Gen.rho_de_z z (Flt.lit w0) (Flt.lit wa)) := by
  have hM := hR.max
  unfold Gen.rho_de_z
  have h1 : Is (Flt.lit 1.0 : Ranged R) 1.0 := hR.lit (by norm_num) (by norm_num)
  have hzp : Btn 1 1001 (Flt.lit 1.0 + z) := (h1.btn.add hz (hR.span (Or.inr (by norm_num)) (by norm_num))).mono (by norm_num) (by norm_num)
  have ha : Btn (1 / 1001) 1 (Flt.lit 1.0 / (Flt.lit 1.0 + z)) :=
    (h1.btn.div hzp (by norm_num) one_pos (hR.span (Or.inr (by norm_num)) (by norm_num))).mono (by norm_num) (by norm_num)
  obtain ⟨e, he', e0, e1⟩ := de_exponent hR hw hw' he
  have hpow : Btn 0 1.1e18 (Flt.pow (Flt.lit 1.0 / (Flt.lit 1.0 + z)) (-(Flt.lit 3.0) * (Flt.lit 1.0 + Flt.lit w0 + Flt.lit wa)) : Ranged R) := by
    obtain ⟨x, hx, x0, x1⟩ := ha
    have hx0 : 0 < x := lt_of_lt_of_le (by norm_num) x0
    refine btn_fit (rep_pow hx he' hx0) (Real.rpow_nonneg hx0.le _) ?_ (hR.span (Or.inl rfl) (by norm_num))
    calc x ^ e ≤ x ^ (-6:ℝ) := Real.rpow_le_rpow_of_exponent_ge hx0 x1 e0
      _ = (x ^ 6)⁻¹ := by rw [Real.rpow_neg hx0.le, show (6:ℝ) = ((6:ℕ):ℝ) by norm_num, Real.rpow_natCast]
      _ ≤ ((1 / 1001) ^ 6)⁻¹ := inv_anti₀ (by norm_num) (pow_le_pow_left₀ (by norm_num) x0 6)
      _ ≤ 1.1e18 := by norm_num
  have hexp : Btn 0 1.1e13 (Flt.exp (-(Flt.lit 3.0) * Flt.lit wa * (Flt.lit 1.0 - Flt.lit 1.0 / (Flt.lit 1.0 + z))) : Ranged R) := by
    have b1 : Bd 3 (-(Flt.lit 3.0) : Ranged R) := (hR.lit (by norm_num) (by norm_num)).bd.neg.mono (by norm_num)
    have b2 : Bd 10 (Flt.lit wa : Ranged R) := (bd_lit (by linarith)).mono hw'
    have b3 : Bd 1 (Flt.lit 1.0 - Flt.lit 1.0 / (Flt.lit 1.0 + z)) := by
      obtain ⟨x, hx, x0, x1⟩ := ha
      refine bd_fit (h1.1.sub hx) ?_ (by linarith)
      rw [abs_le]; constructor <;> norm_num <;> linarith
    obtain ⟨u, hu, hub⟩ := (b1.mul b2 (by linarith)).mul b3 (by linarith)
    refine btn_fit (y := Real.exp u) ?_ (Real.exp_pos _).le ?_ (hR.span (Or.inl rfl) (by norm_num))
    · show Rep (XF.exp _) _
      rw [hu.exp]; exact Rep.fin _
    · exact (Real.exp_le_exp.2 ((le_abs_self u).trans (hub.trans (by norm_num)))).trans exp30
  exact (hpow.mul hexp le_rfl le_rfl (hR.span (Or.inl (by norm_num)) (by norm_num))).mono (by norm_num) (by norm_num)

theorem btn_ipow3 (hR : Wide R) {z : Ranged R} (hz : Btn 1 1001 z) : Btn 1 1.1e9 (Flt.ipow z 3) := by
  have h2 := hz.mul hz (by norm_num) (by norm_num) (hR.span (Or.inr (by norm_num)) (by norm_num))
  have h3 := h2.mul hz (by norm_num) (by norm_num) (hR.span (Or.inr (by norm_num)) (by norm_num))
  exact h3.mono (by norm_num) (by norm_num)

theorem btn_sqrt {R : Range} {a : Ranged R} {lo hi : ℝ} (h : Btn lo hi a) (h0 : 0 < lo) (hs : Span R (Real.sqrt lo) (Real.sqrt hi)) :
    Btn (Real.sqrt lo) (Real.sqrt hi) (Flt.sqrt a) := by
  obtain ⟨y, hy, y0, y1⟩ := h
  refine btn_fit (y := Real.sqrt y) ?_ (Real.sqrt_le_sqrt y0) (Real.sqrt_le_sqrt y1) hs
  show Rep (XFPhot.sqrt a.x) _
  rcases hy with e | ⟨-, e⟩
  · rw [e]
    show Rep (if y < 0 then _ else _) _
    rw [if_neg (by linarith)]; exact Rep.fin _
  · exact absurd e (by linarith)

/-- the expansion rate, up to redshift 1000 -/
theorem Ez_btn (hR : Wide R) (hO : 0.01 ≤ Om0 ∧ Om0 ≤ 1) (hw : |w0| ≤ 10) (hw' : |wa| ≤ 10) (he : w0 + wa ≤ 0) {z : Ranged R} (hz : Btn 0 1000 z) :
    Btn 0.1 5e15 (Gen.Ez z (Flt.lit Om0) (Flt.lit w0) (Flt.lit wa)) := by
  unfold Gen.Ez
  have h1 : Is (Flt.lit 1.0 : Ranged R) 1.0 := hR.lit (by norm_num) (by norm_num)
  have hO' : Is (Flt.lit Om0 : Ranged R) Om0 := hR.lit (by linarith) (by linarith)
  have hzp : Btn 1 1001 (Flt.lit 1.0 + z) := (h1.btn.add hz (hR.span (Or.inr (by norm_num)) (by norm_num))).mono (by norm_num) (by norm_num)
  have hm : Btn 0.01 1.1e9 (Flt.lit Om0 * Flt.ipow (Flt.lit 1.0 + z) 3 : Ranged R) :=
    ((hO'.btn.mono hO.1 hO.2).mul (btn_ipow3 hR hzp) (by norm_num) (by norm_num) (hR.span (Or.inr (by norm_num)) (by norm_num))).mono (by norm_num) (by norm_num)
  have hd : Btn 0 1 (Flt.lit 1.0 - Flt.lit Om0 : Ranged R) := (h1.btn_sub hO' (by norm_num; linarith) (by linarith)).mono le_rfl (by norm_num; linarith)
  have hde := (hd.mul (de_btn hR hw hw' he hz) le_rfl le_rfl (hR.span (Or.inl (by norm_num)) (by norm_num)))
  have ht := (hm.add hde (hR.span (Or.inr (by norm_num)) (by norm_num))).mono (lo' := 0.1 ^ 2) (hi' := (5e15:ℝ) ^ 2) (by norm_num) (by norm_num)
  have := btn_sqrt ht (by norm_num) (by
    rw [Real.sqrt_sq (by norm_num), Real.sqrt_sq (by norm_num)]; exact hR.span (Or.inr (by norm_num)) (by norm_num))
  rwa [Real.sqrt_sq (by norm_num), Real.sqrt_sq (by norm_num)] at this

/-- the redshift table `linspace(0, z, n)` holds the exact numbers -/
theorem linspace_is (hR : Wide R) {n : ℕ} (hn : n ≤ 1000) {z : ℝ} (h0 : 1e-6 ≤ z) (h1 : z ≤ 1000) (i : Fin (n + 2)) :
    Is (Gen.linspace (Flt.lit 0) (Flt.lit z) n i : Ranged R) (Jnp.linspace 0 z n i) := by
  have hz : Is (Flt.lit z : Ranged R) z := hR.lit (by linarith) (by linarith)
  have hn' : (n:ℝ) ≤ 1000 := by exact_mod_cast hn
  have hn0 : (0:ℝ) < (n:ℝ) + 1 := by positivity
  rw [linspace_zero_eq]
  unfold Gen.linspace
  split_ifs with hi
  · subst hi
    refine hz.congr ?_
    rw [Fin.val_last]; push_cast; field_simp
  · have hlt : ((i:ℕ):ℝ) ≤ (n:ℝ) + 1 := by exact_mod_cast Nat.le_of_lt_succ i.isLt
    have hl : Is (Flt.lit ((n:ℝ) + 1) : Ranged R) ((n:ℝ) + 1) := hR.lit (by linarith [(Nat.cast_nonneg n : (0:ℝ) ≤ n)]) (by linarith)
    have hcase : ((i:ℕ):ℝ) = 0 ∨ 1 ≤ ((i:ℕ):ℝ) := by
      rcases Nat.eq_zero_or_pos (i:ℕ) with h | h
      · left; rw [h]; simp
      · right; exact_mod_cast h
    have hq : ((i:ℕ):ℝ) / ((n:ℝ) + 1) = 0 ∨ 1e-4 ≤ ((i:ℕ):ℝ) / ((n:ℝ) + 1) := by
      rcases hcase with h | h
      · left; rw [h, zero_div]
      · right; rw [le_div_iff₀ hn0]; linarith
    have hq1 : ((i:ℕ):ℝ) / ((n:ℝ) + 1) ≤ 1 := by rw [div_le_one hn0]; exact hlt
    have hil : Is (Flt.lit ((i:ℕ):ℝ) : Ranged R) ((i:ℕ):ℝ) := is_lit (hcase.imp id fun h => hR.in_pos (by linarith) (by linarith))
    have hdiv := hil.div hl hn0.ne' (hq.imp id fun h => hR.in_pos (by linarith) (by linarith))
    have hprod := hz.mul hdiv (by
      rcases hq with h | h
      · left; rw [h, mul_zero]
      · right
        refine hR.in_pos ?_ ?_
        · have : (1e-6:ℝ) * 1e-4 ≤ z * (((i:ℕ):ℝ) / ((n:ℝ) + 1)) := mul_le_mul h0 h (by norm_num) (by linarith)
          refine le_trans (by norm_num) this
        · have : z * (((i:ℕ):ℝ) / ((n:ℝ) + 1)) ≤ 1000 * 1 := mul_le_mul h1 hq1 (by positivity) (by norm_num)
          linarith)
    refine Is.zero_add ⟨?_, Or.inl rfl⟩ hprod
    refine zero_mul_bd (is_lit (Or.inl rfl)).1 (B := 2) ?_
    have h1' : Is (Flt.lit 1 : Ranged R) 1 := hR.lit (by norm_num) (by norm_num)
    refine (h1'.bd.sub hdiv.bd ?_).mono ?_
    · rw [abs_of_nonneg (by positivity : 0 ≤ ((i:ℕ):ℝ) / ((n:ℝ) + 1))]; norm_num; linarith [hR.max]
    · rw [abs_of_nonneg (by positivity : 0 ≤ ((i:ℕ):ℝ) / ((n:ℝ) + 1))]; norm_num; linarith

theorem half_in (hR : Wide R) : R.In 0.5 := hR.in_pos (by norm_num) (by norm_num)

/-- the integral of a function between `q` and `Q` over the redshift table -/
theorem ztable_btn (hR : Wide R) {n : ℕ} (hn : n ≤ 1000) {z q Q : ℝ} (h0 : 1e-6 ≤ z) (h1 : z ≤ 1000) (hq : 1e-24 ≤ q) (hQ : Q ≤ 1e20) {g : Ranged R → Ranged R}
    (hg : ∀ u, Btn 0 1000 u → Btn q Q (g u)) :
    Btn (1e-12 * q) (1000 * Q) (Gen.trapz (Gen.linspace (Flt.lit 0) (Flt.lit z) n) (fun i => g (Gen.linspace (Flt.lit 0) (Flt.lit z) n i)) : Ranged R) := by
  have hM := hR.max
  have hT := hR.tiny
  have hn' : (n:ℝ) ≤ 1000 := by exact_mod_cast hn
  have hn0 : (0:ℝ) < (n:ℝ) + 1 := by positivity
  have hz := linspace_is hR hn h0 h1
  have hzb : ∀ i, Btn 0 1000 (Gen.linspace (Flt.lit 0) (Flt.lit z) n i : Ranged R) := fun i =>
    (hz i).btn.mono (linspace_nonneg (by linarith) n i) ((linspace_le (by linarith) n i).trans h1)
  have hy := fun i => hg _ (hzb i)
  have hQ0 : 0 < Q := by
    obtain ⟨y, -, y0, y1⟩ := hy 0
    have : (0:ℝ) < 1e-24 := by norm_num
    linarith
  have hmono : Monotone (Jnp.linspace 0 z n) := by
    intro i j hij
    rw [linspace_zero_eq, linspace_zero_eq]
    have : ((i:ℕ):ℝ) ≤ ((j:ℕ):ℝ) := by exact_mod_cast hij
    have : ((i:ℕ):ℝ) / ((n:ℝ) + 1) ≤ ((j:ℕ):ℝ) / ((n:ℝ) + 1) := div_le_div_of_nonneg_right this hn0.le
    exact mul_le_mul_of_nonneg_left this (by linarith)
  have e0 : Jnp.linspace 0 z n 0 = 0 := by rw [linspace_zero_eq]; simp
  have e1 : Jnp.linspace 0 z n (Fin.last (n + 1)) = z := by rw [linspace_zero_eq, Fin.val_last]; push_cast; field_simp
  have ec : (1e-10:ℝ) ≤ Jnp.linspace 0 z n (0 : Fin (n + 1)).succ - Jnp.linspace 0 z n (0 : Fin (n + 1)).castSucc := by
    rw [linspace_zero_eq, linspace_zero_eq]
    have h2 : (1:ℝ) / ((n:ℝ) + 1) ≥ 1e-4 := by rw [ge_iff_le, le_div_iff₀ hn0]; linarith
    have : z * (1 / ((n:ℝ) + 1)) ≥ 1e-6 * 1e-4 := mul_le_mul h0 h2 (by norm_num) (by linarith)
    simp only [Fin.val_succ, Fin.val_castSucc, Fin.val_zero]
    norm_num at this ⊢
    linarith
  have hz' : z * (2 * Q) ≤ 2e23 := by nlinarith
  have hb := (btn_trapz (ys := fun i => g (Gen.linspace (Flt.lit 0) (Flt.lit z) n i)) hz hmono e0.ge (fun i => (hy i).mono (by linarith) le_rfl)
    (by linarith) (by rw [e0, e1, sub_zero]; linarith) (half_in hR)).2 q 1e-10 0 (by norm_num) ec (hT.trans (by norm_num)) (hT.trans (by linarith)) (hT.trans (by linarith))
    (Or.inl (hy _))
  rw [e0, e1, sub_zero] at hb
  exact hb.mono (by linarith) (mul_le_mul_of_nonneg_right h1 hQ0.le)

theorem inv_Ez_btn (hR : Wide R) (hO : 0.01 ≤ Om0 ∧ Om0 ≤ 1) (hw : |w0| ≤ 10) (hw' : |wa| ≤ 10) (he : w0 + wa ≤ 0) {z : Ranged R} (hz : Btn 0 1000 z) :
    Btn 2e-16 10 (Flt.lit 1 / Gen.Ez z (Flt.lit Om0) (Flt.lit w0) (Flt.lit wa)) := by
  have h1 : Is (Flt.lit 1 : Ranged R) 1 := hR.lit (by norm_num) (by norm_num)
  exact (h1.btn.div (Ez_btn hR hO hw hw' he hz) (by norm_num) (by norm_num) (hR.span (Or.inr (by norm_num)) (by norm_num))).mono (by norm_num) (by norm_num)

/-- C163: in single (and double) precision the distances to redshifts between 1e-6 and 1000 neither overflow nor underflow: they are positive finite numbers (Mpc). -/
theorem C163_distances (hR : Wide R) (H : OrdinaryCosmo Om0 w0 wa h) {z : ℝ} (h0 : 1e-6 ≤ z) (h1 : z ≤ 1000) :
    Btn 1e-27 1e11 (Gen.comoving_distance_to_z (Flt.lit z) (Flt.lit Om0) (Flt.lit w0) (Flt.lit wa) (Flt.lit h) : Ranged R) ∧
    Btn 1e-27 1e15 (Gen.luminosity_distance_to_z (Flt.lit z) (Flt.lit Om0) (Flt.lit w0) (Flt.lit wa) (Flt.lit h) : Ranged R) ∧
    Btn 1e-31 1e11 (Gen.angular_diameter_distance_to_z (Flt.lit z) (Flt.lit Om0) (Flt.lit w0) (Flt.lit wa) (Flt.lit h) : Ranged R) ∧
    Bd 200 (Gen.distance_modulus_to_z (Flt.lit z) (Flt.lit Om0) (Flt.lit w0) (Flt.lit wa) (Flt.lit h) : Ranged R) := by
  have hM := hR.max
  have hI := ztable_btn hR (n := 254) (by norm_num) (q := 2e-16) (Q := 10) h0 h1 (by norm_num) (by norm_num)
    (g := fun u => Gen.integrand_oneOverEz u (Flt.lit Om0) (Flt.lit w0) (Flt.lit wa)) fun u hu => inv_Ez_btn hR H.om H.hw0 H.hwa H.early hu
  have hC : Is (Flt.lit FlatWcdm.C_SPEED : Ranged R) FlatWcdm.C_SPEED := hR.lit (by norm_num [FlatWcdm.C_SPEED]) (by norm_num [FlatWcdm.C_SPEED])
  have h5 : Is (Flt.lit 1e-5 : Ranged R) 1e-5 := hR.lit (by norm_num) (by norm_num)
  have hh : Is (Flt.lit h : Ranged R) h := hR.lit (by linarith [H.hh.1]) (by linarith [H.hh.2])
  have hz : Is (Flt.lit z : Ranged R) z := hR.lit (by linarith) (by linarith)
  have hone : Is (Flt.lit 1 : Ranged R) 1 := hR.lit (by norm_num) (by norm_num)
  have hzp : Btn 1 1001 (Flt.lit 1 + Flt.lit z : Ranged R) :=
    (hone.btn.add (hz.btn.mono (lo' := 0) (by linarith) h1) (hR.span (Or.inr (by norm_num)) (by norm_num))).mono (by norm_num) (by norm_num)
  have hC' : Btn 1e8 3e8 (Flt.lit FlatWcdm.C_SPEED : Ranged R) := hC.btn.mono (by norm_num [FlatWcdm.C_SPEED]) (by norm_num [FlatWcdm.C_SPEED])
  have hd : Btn 1e-27 1e11 (Gen.comoving_distance_to_z (Flt.lit z) (Flt.lit Om0) (Flt.lit w0) (Flt.lit wa) (Flt.lit h) : Ranged R) := by
    have a1 := hI.mul hC' (by norm_num) (by norm_num) (hR.span (Or.inr (by norm_num)) (by norm_num))
    have a2 := a1.mul h5.btn (by norm_num) (by norm_num) (hR.span (Or.inr (by norm_num)) (by norm_num))
    have a3 := a2.div (hh.btn.mono H.hh.1 H.hh.2) (by norm_num) (by norm_num) (hR.span (Or.inr (by norm_num)) (by norm_num))
    exact a3.mono (by norm_num) (by norm_num)
  have hl : Btn 1e-27 1e15 (Gen.luminosity_distance_to_z (Flt.lit z) (Flt.lit Om0) (Flt.lit w0) (Flt.lit wa) (Flt.lit h) : Ranged R) :=
    (hd.mul hzp (by norm_num) (by norm_num) (hR.span (Or.inr (by norm_num)) (by norm_num))).mono (by norm_num) (by norm_num)
  refine ⟨hd, hl, (hd.div hzp (by norm_num) (by norm_num) (hR.span (Or.inr (by norm_num)) (by norm_num))).mono (by norm_num) (by norm_num), ?_⟩
  have he5 : Is (Flt.lit 1e5 : Ranged R) 1e5 := hR.lit (by norm_num) (by norm_num)
  obtain ⟨y, hy, y0, y1⟩ := hl.mul he5.btn (by norm_num) (by norm_num) (hR.span (Or.inr (by norm_num)) (by norm_num))
  have hlog : Bd 40 (Flt.log10 (Gen.luminosity_distance_to_z (Flt.lit z) (Flt.lit Om0) (Flt.lit w0) (Flt.lit wa) (Flt.lit h) * Flt.lit 1e5) : Ranged R) := by
    have hy0 : 0 < y := lt_of_lt_of_le (by norm_num) y0
    refine bd_fit (y := Real.logb 10 y) ?_ ?_ (by linarith)
    · show Rep (XF.log10 _) _
      rw [hy.log10 hy0]; exact Rep.fin _
    · rw [abs_le]
      constructor
      · rw [Real.le_logb_iff_rpow_le (by norm_num) hy0, Real.rpow_neg (by norm_num), show (40:ℝ) = ((40:ℕ):ℝ) by norm_num, Real.rpow_natCast]
        refine le_trans (by norm_num) y0
      · rw [Real.logb_le_iff_le_rpow (by norm_num) hy0, show (40:ℝ) = ((40:ℕ):ℝ) by norm_num, Real.rpow_natCast]
        refine y1.trans (by norm_num)
  have h5' : Bd 5 (Flt.lit 5.0 : Ranged R) := (hR.lit (by norm_num) (by norm_num)).bd.mono (by norm_num)
  exact (h5'.mul hlog (by linarith)).mono (by norm_num)

/-- the expansion rate today -/
theorem Ez0_btn (hR : Wide R) (hO : 0.01 ≤ Om0 ∧ Om0 ≤ 1) (hw : |w0| ≤ 10) (hw' : |wa| ≤ 10) (he : w0 + wa ≤ 0) :
    Btn 0.1 2 (Gen.Ez (Flt.lit 0.0) (Flt.lit Om0) (Flt.lit w0) (Flt.lit wa) : Ranged R) := by
  have hM := hR.max
  have h1 : Is (Flt.lit 1.0 : Ranged R) 1.0 := hR.lit (by norm_num) (by norm_num)
  have h0 : Is (Flt.lit 0.0 : Ranged R) 0 := (is_lit (Or.inl (by norm_num))).congr (by norm_num)
  have hin : R.In (1:ℝ) := hR.in_pos (by norm_num) (by norm_num)
  have hzp : Is (Flt.lit 1.0 + Flt.lit 0.0 : Ranged R) 1 := (h1.add h0 (Or.inr (by norm_num; exact hin))).congr (by norm_num)
  have ha : Is (Flt.lit 1.0 / (Flt.lit 1.0 + Flt.lit 0.0) : Ranged R) 1 := (h1.div hzp one_ne_zero (Or.inr (by norm_num; exact hin))).congr (by norm_num)
  have hde : Btn 1 1 (Gen.rho_de_z (Flt.lit 0.0) (Flt.lit w0) (Flt.lit wa) : Ranged R) := by
    unfold Gen.rho_de_z
    obtain ⟨e, he', -, -⟩ := de_exponent hR hw hw' he
    have hpow : Btn 1 1 (Flt.pow (Flt.lit 1.0 / (Flt.lit 1.0 + Flt.lit 0.0)) (-(Flt.lit 3.0) * (Flt.lit 1.0 + Flt.lit w0 + Flt.lit wa)) : Ranged R) := by
      have := rep_pow ha.1 he' one_pos
      rw [Real.one_rpow] at this
      exact btn_fit this le_rfl le_rfl (hR.span (Or.inr (by norm_num)) (by norm_num))
    have hexp : Btn 1 1 (Flt.exp (-(Flt.lit 3.0) * Flt.lit wa * (Flt.lit 1.0 - Flt.lit 1.0 / (Flt.lit 1.0 + Flt.lit 0.0))) : Ranged R) := by
      have b1 : Bd 3 (-(Flt.lit 3.0) : Ranged R) := (hR.lit (by norm_num) (by norm_num)).bd.neg.mono (by norm_num)
      have b2 : Bd 10 (Flt.lit wa : Ranged R) := (bd_lit (by linarith)).mono hw'
      have b3 : Is (Flt.lit 1.0 - Flt.lit 1.0 / (Flt.lit 1.0 + Flt.lit 0.0) : Ranged R) 0 := (h1.sub ha (Or.inl (by norm_num))).congr (by norm_num)
      obtain ⟨u, hu, -⟩ := b1.mul b2 (by linarith)
      have h3 := hu.mul b3.1
      rw [mul_zero] at h3
      have h4 : Rep (-(Flt.lit 3.0) * Flt.lit wa * (Flt.lit 1.0 - Flt.lit 1.0 / (Flt.lit 1.0 + Flt.lit 0.0)) : Ranged R).x 0 := rep_fit (R := R) h3 (Or.inl rfl)
      refine btn_fit (y := Real.exp 0) ?_ (by simp) (by simp) (hR.span (Or.inr (by norm_num)) (by norm_num))
      show Rep (XF.exp _) _
      rw [h4.exp]; exact Rep.fin _
    exact (hpow.mul hexp zero_le_one zero_le_one (hR.span (Or.inr (by norm_num)) (by norm_num))).mono (by norm_num) (by norm_num)
  unfold Gen.Ez
  have hO' : Is (Flt.lit Om0 : Ranged R) Om0 := hR.lit (by linarith) (by linarith)
  have hi3 : Btn 1 1 (Flt.ipow (Flt.lit 1.0 + Flt.lit 0.0) 3 : Ranged R) := by
    have h2 := hzp.btn.mul hzp.btn (by norm_num) (by norm_num) (hR.span (Or.inr (by norm_num)) (by norm_num))
    have h3 := h2.mul hzp.btn (by norm_num) (by norm_num) (hR.span (Or.inr (by norm_num)) (by norm_num))
    exact h3.mono (by norm_num) (by norm_num)
  have hm : Btn 0.01 1 (Flt.lit Om0 * Flt.ipow (Flt.lit 1.0 + Flt.lit 0.0) 3 : Ranged R) :=
    ((hO'.btn.mono hO.1 hO.2).mul hi3 (by norm_num) (by norm_num) (hR.span (Or.inr (by norm_num)) (by norm_num))).mono (by norm_num) (by norm_num)
  have hd : Btn 0 1 (Flt.lit 1.0 - Flt.lit Om0 : Ranged R) := (h1.btn_sub hO' (by norm_num; linarith) (by linarith)).mono le_rfl (by norm_num; linarith)
  have hde' := (hd.mul hde le_rfl zero_le_one (hR.span (Or.inl (by norm_num)) (by norm_num)))
  have ht := (hm.add hde' (hR.span (Or.inr (by norm_num)) (by norm_num))).mono (lo' := 0.1 ^ 2) (hi' := (2:ℝ) ^ 2) (by norm_num) (by norm_num)
  have := btn_sqrt ht (by norm_num) (by
    rw [Real.sqrt_sq (by norm_num), Real.sqrt_sq (by norm_num)]; exact hR.span (Or.inr (by norm_num)) (by norm_num))
  rwa [Real.sqrt_sq (by norm_num), Real.sqrt_sq (by norm_num)] at this

theorem agrid_one : 0.01 ≤ agrid 1 := by
  have h := agrid_eq 1
  rw [h]
  have h1 : ((1 : Fin 512) : ℕ) = 1 := rfl
  rw [h1]
  have h2 : (10:ℝ) ^ (3 * (((1:ℕ):ℝ) / 511)) = Real.exp (Real.log 10 * (3 * (((1:ℕ):ℝ) / 511))) := Real.rpow_def_of_pos (by norm_num) _
  have h3 : (2:ℝ) ≤ Real.log 10 := by
    rw [Real.le_log_iff_exp_le (by norm_num), show (2:ℝ) = 1 + 1 by norm_num, Real.exp_add]
    have := Real.exp_one_lt_d9
    nlinarith [Real.exp_pos 1]
  have h4 := Real.add_one_le_exp (Real.log 10 * (3 * (((1:ℕ):ℝ) / 511)))
  rw [h2]
  have : (2:ℝ) * (3 * (((1:ℕ):ℝ) / 511)) ≤ Real.log 10 * (3 * (((1:ℕ):ℝ) / 511)) := mul_le_mul_of_nonneg_right h3 (by positivity)
  norm_num at this h4 ⊢
  linarith

/-- C163: neither do the lookback time and the age of the universe today (Gyr), and the age at a redshift is finite (where rounding matters it may be negative, see C30). -/
theorem C163_times (hR : Wide R) (H : OrdinaryCosmo Om0 w0 wa h) {z : ℝ} (h0 : 1e-6 ≤ z) (h1 : z ≤ 1000) :
    Btn 1e-33 1e9 (Gen.lookback_to_z (Flt.lit z) (Flt.lit Om0) (Flt.lit w0) (Flt.lit wa) (Flt.lit h) : Ranged R) ∧
    Btn 1e-24 1e9 (Gen.age_at_z0 (Flt.lit Om0) (Flt.lit w0) (Flt.lit wa) (Flt.lit h) : Ranged R) ∧
    Bd 2e9 (Gen.age_at_z_kern (Flt.lit z) (Flt.lit Om0) (Flt.lit w0) (Flt.lit wa) (Flt.lit h) : Ranged R) := by
  have hM := hR.max
  have hT := hR.tiny
  have hone : Is (Flt.lit 1 : Ranged R) 1 := hR.lit (by norm_num) (by norm_num)
  have hg : ∀ u : Ranged R, Btn 0 1000 u → Btn 1e-19 10 (Flt.lit 1 / Gen.Ez u (Flt.lit Om0) (Flt.lit w0) (Flt.lit wa) / (Flt.lit 1 + u)) := fun u hu => by
    have hzp : Btn 1 1001 (Flt.lit 1 + u) := (hone.btn.add hu (hR.span (Or.inr (by norm_num)) (by norm_num))).mono (by norm_num) (by norm_num)
    exact ((inv_Ez_btn hR H.om H.hw0 H.hwa H.early hu).div hzp (by norm_num) (by norm_num) (hR.span (Or.inr (by norm_num)) (by norm_num))).mono
      (by norm_num) (by norm_num)
  have hI := ztable_btn hR (n := 510) (by norm_num) (q := 1e-19) (Q := 10) h0 h1 (by norm_num) (by norm_num) hg
  have hh : Is (Flt.lit h : Ranged R) h := hR.lit (by linarith [H.hh.1]) (by linarith [H.hh.2])
  have hc : Is (Flt.lit (1e-16 * FlatWcdm.MPC / FlatWcdm.YEAR) : Ranged R) (1e-16 * FlatWcdm.MPC / FlatWcdm.YEAR) :=
    hR.lit (by norm_num [FlatWcdm.MPC, FlatWcdm.YEAR]) (by norm_num [FlatWcdm.MPC, FlatWcdm.YEAR])
  have hth : Btn 0.04 1e4 (Gen.hubble_time (Flt.lit 0.0) (Flt.lit Om0) (Flt.lit w0) (Flt.lit wa) (Flt.lit h) : Ranged R) := by
    have a1 := (hc.btn.mono (lo' := 9) (hi' := 10) (by norm_num [FlatWcdm.MPC, FlatWcdm.YEAR]) (by norm_num [FlatWcdm.MPC, FlatWcdm.YEAR])).div
      (hh.btn.mono H.hh.1 H.hh.2) (by norm_num) (by norm_num) (hR.span (Or.inr (by norm_num)) (by norm_num))
    exact (a1.div (Ez0_btn hR H.om H.hw0 H.hwa H.early) (by norm_num) (by norm_num) (hR.span (Or.inr (by norm_num)) (by norm_num))).mono (by norm_num) (by norm_num)
  have hL : Btn 1e-33 1e9 (Gen.lookback_to_z (Flt.lit z) (Flt.lit Om0) (Flt.lit w0) (Flt.lit wa) (Flt.lit h) : Ranged R) :=
    (hth.mul hI (by norm_num) (by norm_num) (hR.span (Or.inr (by norm_num)) (by norm_num))).mono (by norm_num) (by norm_num)
  have hgI : ∀ i : Fin 512, Is (Flt.lit (Jnp.logspace 0 3 510 i - 1.0) : Ranged R) (agrid i) := fun i => by
    refine is_lit (y := agrid i) ?_
    by_cases hi : i = 0
    · left; rw [hi]; exact agrid_zero
    · right
      have h1i : (1 : Fin 512) ≤ i := Fin.one_le_of_ne_zero hi
      have l1 := agrid_one.trans (agrid_mono.monotone h1i)
      have l2 := agrid_mono.monotone (Fin.le_last i)
      rw [agrid_last] at l2
      exact hR.in_pos (by linarith) (by linarith)
  have hy : ∀ i : Fin 512, Btn 1e-19 10 (Flt.lit 1 / Gen.Ez (Flt.lit (Jnp.logspace 0 3 510 i - 1.0)) (Flt.lit Om0) (Flt.lit w0) (Flt.lit wa) /
      (Flt.lit 1 + Flt.lit (Jnp.logspace 0 3 510 i - 1.0)) : Ranged R) := fun i => hg _ ((hgI i).btn.mono (agrid_nonneg i) (by
        have l2 := agrid_mono.monotone (Fin.le_last i)
        rw [agrid_last] at l2; linarith))
  have hA : Btn 1e-24 1e9 (Gen.age_at_z0 (Flt.lit Om0) (Flt.lit w0) (Flt.lit wa) (Flt.lit h) : Ranged R) := by
    have e0 : agrid 0 = 0 := agrid_zero
    have e1 : agrid (Fin.last 511) = 999 := agrid_last
    have ec : (0.01:ℝ) ≤ agrid (0 : Fin 511).succ - agrid (0 : Fin 511).castSucc := by
      have : (0 : Fin 511).succ = (1 : Fin 512) := rfl
      have h' : (0 : Fin 511).castSucc = (0 : Fin 512) := rfl
      rw [this, h', e0, sub_zero]; exact agrid_one
    have hb := (btn_trapz hgI agrid_mono.monotone e0.ge (fun i => (hy i).mono (by norm_num) le_rfl) (by linarith) (by rw [e0, e1]; linarith) (half_in hR)).2
      1e-19 0.01 0 (by norm_num) ec (hT.trans (by norm_num)) (hT.trans (by norm_num)) (hT.trans (by norm_num)) (Or.inl (hy _))
    rw [e0, e1] at hb
    exact (hth.mul hb (by norm_num) (by norm_num) (hR.span (Or.inr (by norm_num)) (by norm_num))).mono (by norm_num) (by norm_num)
  refine ⟨hL, hA, ?_⟩
  obtain ⟨y, hy', y0, y1⟩ := hA
  obtain ⟨w, hw', w0', w1⟩ := hL
  refine bd_fit (hy'.sub hw') ?_ (by linarith)
  have p1 : (0:ℝ) ≤ 1e-24 := by norm_num
  have p2 : (0:ℝ) ≤ 1e-33 := by norm_num
  rw [abs_le]; constructor <;> linarith

end Dsps.Props
