import Verif.Rev
import Verif.Lemmas.XFSed
import Verif.Props.NonFinitePhot

/-! Every primitive operation of the reverse-mode model maps `Traced` numbers to `Traced` numbers. -/
namespace Rev
open XF Topology Filter

variable {ι : Type} [Fintype ι] {s : Prop} {θ : ι → ℝ} {a b : Rv ι} {f g : (ι → ℝ) → ℝ}

theorem _root_.XF.Rep.of_eq {a : XF} {x y : ℝ} (h : Rep a x) (e : x = y) : Rep a y := e ▸ h

theorem lin_apply (g : ι → ℝ) (v : ι → ℝ) : lin g v = ∑ i, g i * v i := by
  simp [lin, ContinuousLinearMap.sum_apply]

theorem lin_add (g h : ι → ℝ) : lin (fun i => g i + h i) = lin g + lin h := by
  ext v; simp [lin_apply, add_mul, Finset.sum_add_distrib]
theorem lin_smul (c : ℝ) (g : ι → ℝ) : lin (fun i => c * g i) = c • lin g := by
  ext v; simp [lin_apply, Finset.mul_sum, mul_assoc]
theorem lin_zero : lin (fun _ : ι => (0:ℝ)) = 0 := by ext v; simp [lin_apply]
theorem lin_neg (g : ι → ℝ) : lin (fun i => - g i) = - lin g := by
  ext v; simp [lin_apply, Finset.sum_neg_distrib]

namespace Traced

theorem rep (h : Traced s a f θ) : Rep a.v (f θ) := h.choose_spec.1

theorem weaken {s' : Prop} (h : Traced s a f θ) (hs : s' → s) : Traced s' a f θ :=
  let ⟨g, h1, h2, h3, h4⟩ := h; ⟨g, h1, h2, h3, fun x => h4 (hs x)⟩

theorem continuousAt (h : Traced s a f θ) (hs : s) : ContinuousAt f θ :=
  (h.choose_spec.2.2.2 hs).continuousAt

theorem congr (h : Traced s a f θ) (e : f = g) : Traced s a g θ := e ▸ h

/-- a function that agrees near the parameters (if `s` holds) and at the parameters -/
theorem congr_near (h : Traced s a f θ) (e0 : f θ = g θ) (e : s → g =ᶠ[𝓝 θ] f) : Traced s a g θ :=
  let ⟨G, h1, h2, ht, h3⟩ := h; ⟨G, e0 ▸ h1, h2, ht, fun x => (h3 x).congr_of_eventuallyEq (e x)⟩

theorem lit (c : ℝ) : Traced s (Flt.lit c : Rv ι) (fun _ => c) θ :=
  ⟨fun _ => 0, Rep.fin c, fun ct x h i => (Rep.fin 0).of_eq (by ring), fun e => (Rep.fin 0).of_eq (by simp), fun _ => by
    rw [lin_zero]; exact hasFDerivAt_const c θ⟩

theorem var [DecidableEq ι] (k : ι) : Traced s (Rv.var k (XF.fin (θ k))) (fun θ => θ k) θ := by
  refine ⟨fun i => if i = k then 1 else 0, Rep.fin _, fun ct c h i => ?_, fun e => (Rep.fin (e k)).of_eq (by simp), fun _ => ?_⟩
  · show Rep (if i = k then ct else 0) _
    split_ifs with hk
    · exact h.of_eq (by simp [hk])
    · exact (Rep.fin 0).of_eq (by simp [hk])
  · have : lin (fun i => if i = k then (1:ℝ) else 0) = ContinuousLinearMap.proj (R := ℝ) k := by
      ext v; simp [lin_apply]
    rw [this]
    exact hasFDerivAt_apply k θ

theorem add (ha : Traced s a f θ) (hb : Traced s b g θ) : Traced s (a + b) (fun θ => f θ + g θ) θ := by
  obtain ⟨G, a1, a2, at', a3⟩ := ha
  obtain ⟨H, b1, b2, bt, b3⟩ := hb
  refine ⟨fun i => G i + H i, a1.add b1, fun ct c h i => ((a2 ct c h i).add (b2 ct c h i)).of_eq (by ring),
    fun e => ((at' e).add (bt e)).of_eq (by simp only [add_mul, Finset.sum_add_distrib]), fun hs => ?_⟩
  rw [lin_add]; exact (a3 hs).add (b3 hs)

theorem neg (ha : Traced s a f θ) : Traced s (-a) (fun θ => - f θ) θ := by
  obtain ⟨G, a1, a2, at', a3⟩ := ha
  refine ⟨fun i => - G i, a1.neg, fun ct c h i => (a2 (-ct) (-c) h.neg i).of_eq (by ring),
    fun e => (at' e).neg.of_eq (by simp only [neg_mul, Finset.sum_neg_distrib]), fun hs => ?_⟩
  rw [lin_neg]; exact (a3 hs).neg

theorem sub (ha : Traced s a f θ) (hb : Traced s b g θ) : Traced s (a - b) (fun θ => f θ - g θ) θ := by
  obtain ⟨G, a1, a2, at', a3⟩ := ha
  obtain ⟨H, b1, b2, bt, b3⟩ := hb
  refine ⟨fun i => G i + - H i, a1.sub b1, fun ct c h i => ((a2 ct c h i).add (b2 (-ct) (-c) h.neg i)).of_eq (by ring),
    fun e => ((at' e).add (bt e).neg).of_eq (by simp only [add_mul, neg_mul, Finset.sum_add_distrib, Finset.sum_neg_distrib]), fun hs => ?_⟩
  rw [lin_add, lin_neg, ← sub_eq_add_neg]; exact (a3 hs).sub (b3 hs)

theorem mul (ha : Traced s a f θ) (hb : Traced s b g θ) : Traced s (a * b) (fun θ => f θ * g θ) θ := by
  obtain ⟨G, a1, a2, at', a3⟩ := ha
  obtain ⟨H, b1, b2, bt, b3⟩ := hb
  refine ⟨fun i => f θ * H i + g θ * G i, a1.mul b1,
    fun ct c h i => ((a2 _ _ (h.mul b1) i).add (b2 _ _ (h.mul a1) i)).of_eq (by ring),
    fun e => (((at' e).mul b1).add ((bt e).mul a1)).of_eq (by simp only [add_mul, Finset.sum_add_distrib, mul_assoc, ← Finset.mul_sum]; ring), fun hs => ?_⟩
  rw [lin_add, lin_smul, lin_smul]
  exact (a3 hs).mul (b3 hs)

/-- a unary operation with derivative `d` -/
theorem unary {φ : ℝ → ℝ} {d : ℝ} {r : Rv ι} (ha : Traced s a f θ) (hv : Rep r.v (φ (f θ)))
    (hback : ∀ ct c, Rep ct c → ∃ ct', Rep ct' (c * d) ∧ ∀ i, r.back ct i = a.back ct' i)
    (htan : ∀ e c, Rep (a.tan e) c → Rep (r.tan e) (c * d))
    (hd : s → HasDerivAt φ d (f θ)) : Traced s r (fun θ => φ (f θ)) θ := by
  obtain ⟨G, a1, a2, at', a3⟩ := ha
  refine ⟨fun i => d * G i, hv, fun ct c h i => ?_, fun e => (htan e _ (at' e)).of_eq (by simp only [mul_assoc, ← Finset.mul_sum]; ring), fun hs => ?_⟩
  · obtain ⟨ct', h1, h2⟩ := hback ct c h
    rw [h2 i]; exact (a2 _ _ h1 i).of_eq (by ring)
  · rw [lin_smul]
    exact (hd hs).comp_hasFDerivAt θ (a3 hs)

theorem inv_aux (hb : Traced s b g θ) (h0 : g θ ≠ 0) : s → ∃ G : ι → ℝ, HasFDerivAt g (lin G) θ :=
  fun hs => let ⟨G, _, _, _, h⟩ := hb; ⟨G, h hs⟩

theorem div (ha : Traced s a f θ) (hb : Traced s b g θ) (h0 : g θ ≠ 0) : Traced s (a / b) (fun θ => f θ / g θ) θ := by
  obtain ⟨G, a1, a2, at', a3⟩ := ha
  obtain ⟨H, b1, b2, bt, b3⟩ := hb
  refine ⟨fun i => (g θ)⁻¹ * G i + (f θ * -(g θ ^ 2)⁻¹) * H i, a1.div b1 h0, fun ct c h i => ?_, fun e => ?_, fun hs => ?_⟩
  · refine ((a2 _ _ (h.div b1 h0) i).add
      (b2 _ _ ((h.neg.mul a1).mul ((Rep.fin 1).div (b1.mul b1) (mul_ne_zero h0 h0))) i)).of_eq ?_
    field_simp
  · refine (((at' e).div b1 h0).add (((bt e).neg.mul a1).mul ((Rep.fin 1).div (b1.mul b1) (mul_ne_zero h0 h0)))).of_eq ?_
    simp only [add_mul, Finset.sum_add_distrib, mul_assoc, ← Finset.mul_sum]
    field_simp
  · rw [lin_add, lin_smul, lin_smul]
    have h1 : HasFDerivAt (fun θ => (g θ)⁻¹) (-(g θ ^ 2)⁻¹ • lin H) θ := (hasDerivAt_inv h0).comp_hasFDerivAt θ (b3 hs)
    have h2 := (a3 hs).mul h1
    rw [smul_smul, add_comm] at h2
    exact h2

theorem ipow (ha : Traced s a f θ) (n : ℕ) : Traced s (Flt.ipow a n) (fun θ => f θ ^ n) θ := by
  have hr := ha.rep
  refine ha.unary (φ := fun x => x ^ n) (d := n * f θ ^ (n - 1)) (Rep.npow hr n)
    (fun ct c h => ⟨_, h.mul ((Rep.fin (n:ℝ)).mul (Rep.npow hr (n - 1))), fun i => rfl⟩) (fun e c h => h.mul ((Rep.fin (n:ℝ)).mul (Rep.npow hr (n - 1)))) fun _ => ?_
  exact hasDerivAt_pow n (f θ)

theorem exp (ha : Traced s a f θ) : Traced s (Flt.exp a) (fun θ => Real.exp (f θ)) θ := by
  have e : Rep (XF.exp a.v) (Real.exp (f θ)) := by rw [ha.rep.exp]; exact Rep.fin _
  exact ha.unary e (fun ct c h => ⟨_, h.mul e, fun i => rfl⟩) (fun _ c h => h.mul e) fun _ => Real.hasDerivAt_exp _

theorem log (ha : Traced s a f θ) (h0 : 0 < f θ) : Traced s (Flt.log a) (fun θ => Real.log (f θ)) θ := by
  have e : Rep (XF.log a.v) (Real.log (f θ)) := by rw [ha.rep.log h0]; exact Rep.fin _
  exact ha.unary (d := (f θ)⁻¹) e (fun ct c h => ⟨_, (h.div ha.rep h0.ne').of_eq (by rw [div_eq_mul_inv]), fun i => rfl⟩)
    (fun _ c h => (h.div ha.rep h0.ne').of_eq (by rw [div_eq_mul_inv])) fun _ => Real.hasDerivAt_log h0.ne'

theorem log10 (ha : Traced s a f θ) (h0 : 0 < f θ) : Traced s (Flt.log10 a) (fun θ => Jnp.log10 (f θ)) θ := by
  have e : Rep (XF.log10 a.v) (Jnp.log10 (f θ)) := by rw [ha.rep.log10 h0]; exact Rep.fin _
  have l10 : Real.log 10 ≠ 0 := (Real.log_pos (by norm_num)).ne'
  refine ha.unary (d := (f θ)⁻¹ / Real.log 10) e
    (fun ct c h => ⟨_, ((h.div (Rep.fin _) l10).div ha.rep h0.ne').of_eq (by field_simp), fun i => rfl⟩)
    (fun _ c h => ((h.div ha.rep h0.ne').div (Rep.fin _) l10).of_eq (by field_simp)) fun _ => ?_
  exact (Real.hasDerivAt_log h0.ne').div_const _

theorem exp10 (ha : Traced s a f θ) : Traced s (Flt.exp10 a) (fun θ => Jnp.exp10 (f θ)) θ := by
  have e : Rep (XF.exp10 a.v) (Jnp.exp10 (f θ)) := by rw [ha.rep.exp10]; exact Rep.fin _
  refine ha.unary (d := Real.log 10 * Jnp.exp10 (f θ)) e
    (fun ct c h => ⟨_, h.mul ((Rep.fin _).mul e), fun i => rfl⟩) (fun _ c h => h.mul ((Rep.fin _).mul e)) fun _ => ?_
  have := (hasDerivAt_id (f θ)).const_rpow (a := 10) (by norm_num)
  refine this.congr_deriv ?_
  simp [Jnp.exp10]

theorem sqrt (ha : Traced s a f θ) (h0 : 0 < f θ) : Traced s (Flt.sqrt a) (fun θ => Real.sqrt (f θ)) θ := by
  have e : Rep (Dsps.XFPhot.sqrt a.v) (Real.sqrt (f θ)) := by
    rcases ha.rep with h | ⟨h, h'⟩
    · rw [h]; simp only [Dsps.XFPhot.sqrt, not_lt.2 h0.le, if_false]; exact Rep.fin _
    · exact absurd h0 (by rw [h']; exact lt_irrefl _)
  have hs0 : Real.sqrt (f θ) ≠ 0 := (Real.sqrt_pos.2 h0).ne'
  refine ha.unary (d := 1 / (2 * Real.sqrt (f θ))) e
    (fun ct c h => ⟨_, (h.mul ((Rep.fin (0.5:ℝ)).div e hs0)).of_eq (by rw [show (0.5:ℝ) = 1 / 2 by norm_num]; field_simp), fun i => rfl⟩)
    (fun _ c h => (h.mul ((Rep.fin (0.5:ℝ)).div e hs0)).of_eq (by rw [show (0.5:ℝ) = 1 / 2 by norm_num]; field_simp)) fun _ => ?_
  exact Real.hasDerivAt_sqrt h0.ne'

theorem logistic (ha : Traced s a f θ) : Traced s (Flt.logistic a) (fun θ => Jnp.sigmoid (f θ)) θ := by
  have hp : (1:ℝ) + Real.exp (-(f θ)) ≠ 0 := by positivity
  have e : Rep (1 / (1 + XF.exp (-a.v))) (Jnp.sigmoid (f θ)) := by
    rw [ha.rep.neg.exp]; exact (Rep.fin 1).div ((Rep.fin 1).add (Rep.fin _)) hp
  refine ha.unary (d := Jnp.sigmoid (f θ) * (1 - Jnp.sigmoid (f θ))) e
    (fun ct c h => ⟨_, h.mul (e.mul ((Rep.fin 1).sub e)), fun i => rfl⟩) (fun _ c h => h.mul (e.mul ((Rep.fin 1).sub e))) fun _ => ?_
  have h1 : HasDerivAt (fun x : ℝ => 1 + Real.exp (-x)) (-Real.exp (-(f θ))) (f θ) := by
    have := (((hasDerivAt_id (f θ)).neg).exp).const_add 1
    simpa using this
  have h2 := h1.inv hp
  have h3 : (fun x : ℝ => 1 + Real.exp (-x))⁻¹ = Jnp.sigmoid := by
    funext x; simp [Jnp.sigmoid]
  rw [h3] at h2
  refine h2.congr_deriv ?_
  unfold Jnp.sigmoid
  field_simp
  ring

theorem xfpow {a b : XF} {x y : ℝ} (ha : Rep a x) (hb : Rep b y) (hx : 0 < x) : Rep (Dsps.XFUtils.pow a b) (x ^ y) := by
  rcases ha with rfl | ⟨rfl, rfl⟩
  · rcases hb with rfl | ⟨rfl, rfl⟩
    · simp only [Dsps.XFUtils.pow, hx, if_true]; exact Rep.fin _
    · simp only [Dsps.XFUtils.pow, hx, if_true, Real.rpow_zero]; exact Rep.fin _
  · exact absurd hx (lt_irrefl _)

theorem pow (ha : Traced s a f θ) (hb : Traced s b g θ) (h0 : 0 < f θ) : Traced s (Flt.pow a b) (fun θ => f θ ^ g θ) θ := by
  obtain ⟨G, a1, a2, at', a3⟩ := ha
  obtain ⟨H, b1, b2, bt, b3⟩ := hb
  have e := xfpow a1 b1 h0
  have e1 := xfpow a1 (b1.sub (Rep.fin 1)) h0
  have el : Rep (XF.log a.v) (Real.log (f θ)) := by rw [a1.log h0]; exact Rep.fin _
  refine ⟨fun i => (g θ * f θ ^ (g θ - 1)) * G i + (f θ ^ g θ * Real.log (f θ)) * H i, e, fun ct c h i => ?_, fun dir => ?_, fun hs => ?_⟩
  · exact ((a2 _ _ (h.mul (b1.mul e1)) i).add (b2 _ _ (h.mul (el.mul e)) i)).of_eq (by ring)
  · refine (((at' dir).mul (b1.mul e1)).add ((bt dir).mul (el.mul e))).of_eq ?_
    simp only [add_mul, Finset.sum_add_distrib, mul_assoc, ← Finset.mul_sum]
    ring
  · rw [lin_add, lin_smul, lin_smul]
    exact (a3 hs).rpow (b3 hs) h0

/-- `jnp.where`: both branches must back-propagate finite numbers; the derivative is that of the branch taken. -/
theorem sel {c : Prop} {F : (ι → ℝ) → ℝ} {s1 s2 : Prop} (ha : Traced s1 a f θ) (hb : Traced s2 b g θ)
    (h1 : c → F θ = f θ ∧ (s → s1 ∧ F =ᶠ[𝓝 θ] f)) (h2 : ¬ c → F θ = g θ ∧ (s → s2 ∧ F =ᶠ[𝓝 θ] g)) :
    Traced s (Flt.sel c a b) F θ := by
  obtain ⟨G, a1, a2, at', a3⟩ := ha
  obtain ⟨H, b1, b2, bt, b3⟩ := hb
  classical
  by_cases hc : c
  · refine ⟨G, ?_, fun ct x h i => ?_, fun e => ?_, fun hs => ?_⟩
    · show Rep (if c then a.v else b.v) _
      rw [if_pos hc, (h1 hc).1]; exact a1
    · show Rep (a.back (if c then ct else 0) i + b.back (if c then 0 else ct) i) _
      rw [if_pos hc, if_pos hc]
      exact ((a2 _ _ h i).add (b2 _ _ (Rep.fin 0) i)).of_eq (by ring)
    · show Rep (if c then a.tan e else b.tan e) _
      rw [if_pos hc]; exact at' e
    · exact (a3 ((h1 hc).2 hs).1).congr_of_eventuallyEq ((h1 hc).2 hs).2
  · refine ⟨H, ?_, fun ct x h i => ?_, fun e => ?_, fun hs => ?_⟩
    · show Rep (if c then a.v else b.v) _
      rw [if_neg hc, (h2 hc).1]; exact b1
    · show Rep (a.back (if c then ct else 0) i + b.back (if c then 0 else ct) i) _
      rw [if_neg hc, if_neg hc]
      exact ((a2 _ _ (Rep.fin 0) i).add (b2 _ _ h i)).of_eq (by ring)
    · show Rep (if c then a.tan e else b.tan e) _
      rw [if_neg hc]; exact bt e
    · exact (b3 ((h2 hc).2 hs).1).congr_of_eventuallyEq ((h2 hc).2 hs).2

/-- run-time indexing -/
theorem take {n : ℕ} {xs : Fin n → Rv ι} {F : Fin n → (ι → ℝ) → ℝ} (h : ∀ j, Traced s (xs j) (F j) θ) (k : Fin n) :
    Traced s (Flt.take xs k) (F k) θ := by
  choose G h1 h2 ht h3 using h
  refine ⟨G k, h1 k, fun ct c hc i => ?_, ht k, h3 k⟩
  classical
  show Rep (XF.sum fun j => (xs j).back (if j = k then ct else 0) i) _
  have : ∀ j, Rep ((xs j).back (if j = k then ct else 0) i) (if j = k then c * G j i else 0) := by
    intro j
    by_cases hj : j = k
    · rw [if_pos hj, if_pos hj]; exact h2 j _ _ hc i
    · rw [if_neg hj, if_neg hj]; exact (h2 j _ _ (Rep.fin 0) i).of_eq (by ring)
  refine (rep_sum this).of_eq ?_
  simp [Jnp.sum]

theorem sum {n : ℕ} {xs : Fin n → Rv ι} {F : Fin n → (ι → ℝ) → ℝ} (h : ∀ j, Traced s (xs j) (F j) θ) :
    Traced s (Flt.sum xs) (fun θ => Jnp.sum fun j => F j θ) θ := by
  choose G h1 h2 ht h3 using h
  refine ⟨fun i => ∑ j, G j i, rep_sum h1, fun ct c hc i => ?_, fun e => ?_, fun hs => ?_⟩
  · refine (rep_sum fun j => h2 j ct c hc i).of_eq ?_
    simp [Jnp.sum, Finset.mul_sum]
  · refine (rep_sum fun j => ht j e).of_eq ?_
    simp only [Jnp.sum, Finset.sum_mul]
    exact Finset.sum_comm
  · have e : lin (fun i => ∑ j, G j i) = ∑ j, lin (G j) := by
      ext v; simp [lin_apply, ContinuousLinearMap.sum_apply, Finset.sum_mul]
      exact Finset.sum_comm
    rw [e]
    unfold Jnp.sum
    exact HasFDerivAt.fun_sum fun j _ => h3 j hs

/-- what `jax.value_and_grad` returns -/
theorem gradOk [DecidableEq ι] (h : Traced s a f θ) : GradOk s a f θ := by
  obtain ⟨G, h1, h2, ht, h3⟩ := h
  refine ⟨h1, fun i => ⟨G i, (h2 1 1 (Rep.fin 1) i).of_eq (one_mul _), fun hs => ?_⟩, fun dir => ⟨_, ht dir, fun hs => ?_⟩⟩
  swap
  · have hl : HasDerivAt (fun t : ℝ => θ + t • dir) dir 0 := by
      have := ((hasDerivAt_id (0:ℝ)).smul_const dir).const_add θ
      simpa using this
    have hf : HasFDerivAt f (lin G) (θ + (0:ℝ) • dir) := by rw [zero_smul, add_zero]; exact h3 hs
    have := hf.comp_hasDerivAt (0:ℝ) hl
    rwa [lin_apply] at this
  have e : lin G (Pi.single i 1) = G i := by
    rw [lin_apply]
    simp [Pi.single_apply]
  have hu : HasDerivAt (fun t => Function.update θ i t) (Pi.single i (1:ℝ)) (θ i) := by
    rw [hasDerivAt_pi]
    intro j
    by_cases hj : j = i
    · subst hj; simpa using hasDerivAt_id' (θ j)
    · simpa [Function.update_of_ne hj, Pi.single_apply, hj] using hasDerivAt_const (θ i) (θ j)
  have hf : HasFDerivAt f (lin G) (Function.update θ i (θ i)) := by
    rw [Function.update_eq_self]; exact h3 hs
  have := hf.comp_hasDerivAt (θ i) hu
  rw [e] at this
  exact this

end Traced
end Rev
