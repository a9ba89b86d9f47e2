import Verif.Nested
import Verif.Lemmas.Rev

/-! Every primitive operation maps correctly recorded numbers to correctly recorded numbers, at every level of nested differentiation. -/
namespace Nested
open XF Topology Filter Rev

/-- A number type with a relation `T a f θ`: the number `a`, computed at the parameters `θ`, is what the function `f` should give, and all operations respect it. -/
class Tracer (ι α : Type) [Fintype ι] [Flt α] where
  T : α → ((ι → ℝ) → ℝ) → (ι → ℝ) → Prop
  rep : ∀ {a f θ}, T a f θ → Rep (Flt.value a) (f θ)
  cont : ∀ {a f θ}, T a f θ → ContinuousAt f θ
  congr : ∀ {a f g θ}, T a f θ → g =ᶠ[𝓝 θ] f → T a g θ
  lit : ∀ c θ, T (Flt.lit c) (fun _ => c) θ
  add : ∀ {a b f g θ}, T a f θ → T b g θ → T (a + b) (fun y => f y + g y) θ
  sub : ∀ {a b f g θ}, T a f θ → T b g θ → T (a - b) (fun y => f y - g y) θ
  neg : ∀ {a f θ}, T a f θ → T (-a) (fun y => -f y) θ
  mul : ∀ {a b f g θ}, T a f θ → T b g θ → T (a * b) (fun y => f y * g y) θ
  div : ∀ {a b f g θ}, T a f θ → T b g θ → g θ ≠ 0 → T (a / b) (fun y => f y / g y) θ
  ipow : ∀ {a f θ}, T a f θ → ∀ n, T (Flt.ipow a n) (fun y => f y ^ n) θ
  exp : ∀ {a f θ}, T a f θ → T (Flt.exp a) (fun y => Real.exp (f y)) θ
  log : ∀ {a f θ}, T a f θ → 0 < f θ → T (Flt.log a) (fun y => Real.log (f y)) θ
  log10 : ∀ {a f θ}, T a f θ → 0 < f θ → T (Flt.log10 a) (fun y => Jnp.log10 (f y)) θ
  exp10 : ∀ {a f θ}, T a f θ → T (Flt.exp10 a) (fun y => Jnp.exp10 (f y)) θ
  sqrt : ∀ {a f θ}, T a f θ → 0 < f θ → T (Flt.sqrt a) (fun y => Real.sqrt (f y)) θ
  logistic : ∀ {a f θ}, T a f θ → T (Flt.logistic a) (fun y => Jnp.sigmoid (f y)) θ
  pow : ∀ {a b f g θ}, T a f θ → T b g θ → 0 < f θ → T (Flt.pow a b) (fun y => f y ^ g y) θ
  /-- `jnp.where`, branch by branch: the branch not taken must be a correctly recorded number too -/
  sel_pos : ∀ {c : Prop} {a b f g θ}, c → T a f θ → T b g θ → T (Flt.sel c a b) f θ
  sel_neg : ∀ {c : Prop} {a b f g θ}, ¬ c → T a f θ → T b g θ → T (Flt.sel c a b) g θ
  take : ∀ {n : ℕ} {xs : Fin n → α} {F : Fin n → (ι → ℝ) → ℝ} {θ}, (∀ j, T (xs j) (F j) θ) → ∀ k, T (Flt.take xs k) (F k) θ
  sum : ∀ {n : ℕ} {xs : Fin n → α} {F : Fin n → (ι → ℝ) → ℝ} {θ}, (∀ j, T (xs j) (F j) θ) → T (Flt.sum xs) (fun y => Jnp.sum fun j => F j y) θ

/-- the relation of the number type -/
def Tr {ι α : Type} [Fintype ι] [Flt α] [Tracer ι α] (a : α) (f : (ι → ℝ) → ℝ) (θ : ι → ℝ) : Prop := Tracer.T a f θ

namespace Tr
variable {ι α : Type} [Fintype ι] [Flt α] [Tracer ι α] {a b : α} {f g : (ι → ℝ) → ℝ} {θ : ι → ℝ} {n : ℕ}

theorem rep (h : Tr a f θ) : Rep (Flt.value a) (f θ) := Tracer.rep h
theorem cont (h : Tr a f θ) : ContinuousAt f θ := Tracer.cont h
theorem congr (h : Tr a f θ) (e : g =ᶠ[𝓝 θ] f) : Tr a g θ := Tracer.congr h e
theorem of_eq (h : Tr a f θ) (e : f = g) : Tr a g θ := e ▸ h
theorem lit (c : ℝ) : Tr (Flt.lit c : α) (fun _ => c) θ := Tracer.lit c θ
theorem add (ha : Tr a f θ) (hb : Tr b g θ) : Tr (a + b) (fun y => f y + g y) θ := Tracer.add ha hb
theorem sub (ha : Tr a f θ) (hb : Tr b g θ) : Tr (a - b) (fun y => f y - g y) θ := Tracer.sub ha hb
theorem neg (ha : Tr a f θ) : Tr (-a) (fun y => -f y) θ := Tracer.neg ha
theorem mul (ha : Tr a f θ) (hb : Tr b g θ) : Tr (a * b) (fun y => f y * g y) θ := Tracer.mul ha hb
theorem div (ha : Tr a f θ) (hb : Tr b g θ) (h0 : g θ ≠ 0) : Tr (a / b) (fun y => f y / g y) θ := Tracer.div ha hb h0
theorem ipow (ha : Tr a f θ) (n : ℕ) : Tr (Flt.ipow a n) (fun y => f y ^ n) θ := Tracer.ipow ha n
theorem exp (ha : Tr a f θ) : Tr (Flt.exp a) (fun y => Real.exp (f y)) θ := Tracer.exp ha
theorem log (ha : Tr a f θ) (h0 : 0 < f θ) : Tr (Flt.log a) (fun y => Real.log (f y)) θ := Tracer.log ha h0
theorem log10 (ha : Tr a f θ) (h0 : 0 < f θ) : Tr (Flt.log10 a) (fun y => Jnp.log10 (f y)) θ := Tracer.log10 ha h0
theorem exp10 (ha : Tr a f θ) : Tr (Flt.exp10 a) (fun y => Jnp.exp10 (f y)) θ := Tracer.exp10 ha
theorem sqrt (ha : Tr a f θ) (h0 : 0 < f θ) : Tr (Flt.sqrt a) (fun y => Real.sqrt (f y)) θ := Tracer.sqrt ha h0
theorem logistic (ha : Tr a f θ) : Tr (Flt.logistic a) (fun y => Jnp.sigmoid (f y)) θ := Tracer.logistic ha
theorem pow (ha : Tr a f θ) (hb : Tr b g θ) (h0 : 0 < f θ) : Tr (Flt.pow a b) (fun y => f y ^ g y) θ := Tracer.pow ha hb h0
theorem sel_pos {c : Prop} (hc : c) (ha : Tr a f θ) (hb : Tr b g θ) : Tr (Flt.sel c a b) f θ := Tracer.sel_pos hc ha hb
theorem sel_neg {c : Prop} (hc : ¬ c) (ha : Tr a f θ) (hb : Tr b g θ) : Tr (Flt.sel c a b) g θ := Tracer.sel_neg hc ha hb
theorem take {xs : Fin n → α} {F : Fin n → (ι → ℝ) → ℝ} (h : ∀ j, Tr (xs j) (F j) θ) (k : Fin n) : Tr (Flt.take xs k) (F k) θ := Tracer.take h k
theorem sum {xs : Fin n → α} {F : Fin n → (ι → ℝ) → ℝ} (h : ∀ j, Tr (xs j) (F j) θ) : Tr (Flt.sum xs) (fun y => Jnp.sum fun j => F j y) θ := Tracer.sum h

end Tr

/-! ### no differentiation -/

variable {ι α : Type} [Fintype ι] {θ : ι → ℝ} {f g : (ι → ℝ) → ℝ}

theorem cont_log10 (hf : ContinuousAt f θ) (h0 : 0 < f θ) : ContinuousAt (fun y => Jnp.log10 (f y)) θ :=
  (hf.log h0.ne').div_const _

theorem cont_exp10 (hf : ContinuousAt f θ) : ContinuousAt (fun y => Jnp.exp10 (f y)) θ :=
  (Real.continuousAt_const_rpow (a := 10) (by norm_num)).comp hf

theorem cont_sigmoid (hf : ContinuousAt f θ) : ContinuousAt (fun y => Jnp.sigmoid (f y)) θ := by
  unfold Jnp.sigmoid
  exact (continuousAt_const.div (continuousAt_const.add hf.neg.rexp) (by positivity))

theorem rep_sqrt {a : XF} {x : ℝ} (ha : Rep a x) (h0 : 0 < x) : Rep (Dsps.XFPhot.sqrt a) (Real.sqrt x) := by
  rcases ha with h | ⟨h, h'⟩
  · rw [h]; simp only [Dsps.XFPhot.sqrt, not_lt.2 h0.le, if_false]; exact Rep.fin _
  · exact absurd h0 (by rw [h']; exact lt_irrefl _)

open Classical in
noncomputable instance : Tracer ι XF where
  T a f θ := Rep a (f θ) ∧ ContinuousAt f θ
  rep h := h.1
  cont h := h.2
  congr h e := ⟨e.eq_of_nhds ▸ h.1, h.2.congr e.symm⟩
  lit c θ := ⟨Rep.fin c, continuousAt_const⟩
  add h h' := ⟨h.1.add h'.1, h.2.add h'.2⟩
  sub h h' := ⟨h.1.sub h'.1, h.2.sub h'.2⟩
  neg h := ⟨h.1.neg, h.2.neg⟩
  mul h h' := ⟨h.1.mul h'.1, h.2.mul h'.2⟩
  div h h' h0 := ⟨h.1.div h'.1 h0, h.2.div h'.2 h0⟩
  ipow h n := ⟨Rep.npow h.1 n, h.2.pow n⟩
  exp h := ⟨by show Rep (XF.exp _) _; rw [h.1.exp]; exact Rep.fin _, h.2.rexp⟩
  log h h0 := ⟨by show Rep (XF.log _) _; rw [h.1.log h0]; exact Rep.fin _, h.2.log h0.ne'⟩
  log10 h h0 := ⟨by show Rep (XF.log10 _) _; rw [h.1.log10 h0]; exact Rep.fin _, cont_log10 h.2 h0⟩
  exp10 h := ⟨by show Rep (XF.exp10 _) _; rw [h.1.exp10]; exact Rep.fin _, cont_exp10 h.2⟩
  sqrt h h0 := ⟨rep_sqrt h.1 h0, h.2.sqrt⟩
  logistic {a f θ} h := ⟨by
    show Rep (1 / (1 + XF.exp (-a))) _
    rw [h.1.neg.exp]; exact (Rep.fin 1).div ((Rep.fin 1).add (Rep.fin _)) (by positivity), cont_sigmoid h.2⟩
  pow h h' h0 := ⟨Rev.Traced.xfpow h.1 h'.1 h0, h.2.rpow h'.2 (Or.inl h0.ne')⟩
  sel_pos {c a b f g θ} hc h h' := ⟨by show Rep (if c then a else b) _; rw [if_pos hc]; exact h.1, h.2⟩
  sel_neg {c a b f g θ} hc h h' := ⟨by show Rep (if c then a else b) _; rw [if_neg hc]; exact h'.1, h'.2⟩
  take h k := h k
  sum h := ⟨rep_sum fun j => (h j).1, by
    unfold Jnp.sum
    exact tendsto_finset_sum _ fun j _ => (h j).2⟩

/-! ### one more level -/

section levels
variable [Flt α] [Tracer ι α]

/-- a recorded number of reverse mode -/
def TRev (x : RvO α ι) (f : (ι → ℝ) → ℝ) (θ : ι → ℝ) : Prop :=
  ∃ g : ι → (ι → ℝ) → ℝ, Tr x.v f θ ∧ (∀ (ct : α) c, Tr ct c θ → ∀ i, Tr (x.back ct i) (fun y => c y * g i y) θ) ∧
    ∀ᶠ y in 𝓝 θ, HasFDerivAt f (lin fun i => g i y) y

/-- a recorded number of forward mode -/
def TFwd (x : Fw α ι) (f : (ι → ℝ) → ℝ) (θ : ι → ℝ) : Prop :=
  ∃ g : ι → (ι → ℝ) → ℝ, Tr x.v f θ ∧ (∀ dir, Tr (x.tan dir) (fun y => ∑ i, g i y * dir i) θ) ∧
    ∀ᶠ y in 𝓝 θ, HasFDerivAt f (lin fun i => g i y) y

/-! the derivatives -/
variable {G H : ι → (ι → ℝ) → ℝ}

theorem der_unary {φ d : ℝ → ℝ} (hf : ∀ᶠ y in 𝓝 θ, HasFDerivAt f (lin fun i => G i y) y) (hd : ∀ᶠ u in 𝓝 (f θ), HasDerivAt φ (d u) u) :
    ∀ᶠ y in 𝓝 θ, HasFDerivAt (fun y => φ (f y)) (lin fun i => d (f y) * G i y) y := by
  have hc : ContinuousAt f θ := hf.self_of_nhds.continuousAt
  filter_upwards [hf, hc.eventually hd] with y h1 h2
  rw [lin_smul]
  exact h2.comp_hasFDerivAt y h1

theorem der_mul (hf : ∀ᶠ y in 𝓝 θ, HasFDerivAt f (lin fun i => G i y) y) (hg : ∀ᶠ y in 𝓝 θ, HasFDerivAt g (lin fun i => H i y) y) :
    ∀ᶠ y in 𝓝 θ, HasFDerivAt (fun y => f y * g y) (lin fun i => f y * H i y + g y * G i y) y := by
  filter_upwards [hf, hg] with y h1 h2
  rw [lin_add, lin_smul, lin_smul]
  exact h1.mul h2

theorem der_div (hf : ∀ᶠ y in 𝓝 θ, HasFDerivAt f (lin fun i => G i y) y) (hg : ∀ᶠ y in 𝓝 θ, HasFDerivAt g (lin fun i => H i y) y) (h0 : g θ ≠ 0) :
    ∀ᶠ y in 𝓝 θ, HasFDerivAt (fun y => f y / g y) (lin fun i => G i y / g y + -(f y * (1 / (g y * g y))) * H i y) y := by
  have hc : ContinuousAt g θ := hg.self_of_nhds.continuousAt
  filter_upwards [hf, hg, hc.eventually_ne h0] with y h1 h2 h3
  have k1 : HasFDerivAt (fun θ => (g θ)⁻¹) (-(g y ^ 2)⁻¹ • lin fun i => H i y) y := (hasDerivAt_inv h3).comp_hasFDerivAt y h2
  refine (h1.mul k1).congr_fderiv ?_
  have e : (fun i => G i y / g y + -(f y * (1 / (g y * g y))) * H i y) = fun i => (g y)⁻¹ * G i y + (f y * -(g y ^ 2)⁻¹) * H i y := by
    funext i; field_simp
  rw [e, lin_add, lin_smul, lin_smul, smul_smul, add_comm]

theorem der_pow (hf : ∀ᶠ y in 𝓝 θ, HasFDerivAt f (lin fun i => G i y) y) (hg : ∀ᶠ y in 𝓝 θ, HasFDerivAt g (lin fun i => H i y) y) (h0 : 0 < f θ) :
    ∀ᶠ y in 𝓝 θ, HasFDerivAt (fun y => f y ^ g y) (lin fun i => (g y * f y ^ (g y - 1)) * G i y + (Real.log (f y) * f y ^ g y) * H i y) y := by
  have hc : ContinuousAt f θ := hf.self_of_nhds.continuousAt
  filter_upwards [hf, hg, hc.eventually_const_lt h0] with y h1 h2 h3
  refine (h1.rpow h2 h3).congr_fderiv ?_
  rw [lin_add, lin_smul, lin_smul, mul_comm (Real.log _)]

theorem der_sum {n : ℕ} {F : Fin n → (ι → ℝ) → ℝ} {K : Fin n → ι → (ι → ℝ) → ℝ} (h : ∀ j, ∀ᶠ y in 𝓝 θ, HasFDerivAt (F j) (lin fun i => K j i y) y) :
    ∀ᶠ y in 𝓝 θ, HasFDerivAt (fun y => Jnp.sum fun j => F j y) (lin fun i => ∑ j, K j i y) y := by
  filter_upwards [eventually_all.2 h] with y hy
  have e : lin (fun i => ∑ j, K j i y) = ∑ j, lin fun i => K j i y := by
    ext v; simp [lin_apply, ContinuousLinearMap.sum_apply, Finset.sum_mul]
    exact Finset.sum_comm
  rw [e]
  unfold Jnp.sum
  exact HasFDerivAt.fun_sum fun j _ => hy j

theorem d_log {x : ℝ} (h : 0 < x) : ∀ᶠ u in 𝓝 x, HasDerivAt Real.log (1 / u) u := by
  filter_upwards [eventually_gt_nhds h] with u hu
  rw [one_div]; exact Real.hasDerivAt_log (ne_of_gt hu)

theorem d_log10 {x : ℝ} (h : 0 < x) : ∀ᶠ u in 𝓝 x, HasDerivAt Jnp.log10 (1 / Real.log 10 / u) u := by
  filter_upwards [eventually_gt_nhds h] with u hu
  refine ((Real.hasDerivAt_log (ne_of_gt hu)).div_const (Real.log 10)).congr_deriv ?_
  have : Real.log 10 ≠ 0 := (Real.log_pos (by norm_num)).ne'
  have := ne_of_gt hu
  field_simp

theorem d_exp10 (u : ℝ) : HasDerivAt Jnp.exp10 (Real.log 10 * Jnp.exp10 u) u := by
  have := (hasDerivAt_id u).const_rpow (a := 10) (by norm_num)
  refine this.congr_deriv ?_
  simp [Jnp.exp10]

theorem d_sqrt {x : ℝ} (h : 0 < x) : ∀ᶠ u in 𝓝 x, HasDerivAt Real.sqrt (0.5 / Real.sqrt u) u := by
  filter_upwards [eventually_gt_nhds h] with u hu
  refine (Real.hasDerivAt_sqrt (ne_of_gt hu)).congr_deriv ?_
  have : Real.sqrt u ≠ 0 := (Real.sqrt_pos.2 hu).ne'
  rw [show (0.5:ℝ) = 1 / 2 by norm_num]; field_simp

theorem d_logistic (u : ℝ) : HasDerivAt Jnp.sigmoid (Jnp.sigmoid u * (1 - Jnp.sigmoid u)) u := by
  have hp : (1:ℝ) + Real.exp (-u) ≠ 0 := by positivity
  have h1 : HasDerivAt (fun x : ℝ => 1 + Real.exp (-x)) (-Real.exp (-u)) u := by
    have := (((hasDerivAt_id u).neg).exp).const_add 1
    simpa using this
  have h2 := h1.inv hp
  have h3 : (fun x : ℝ => 1 + Real.exp (-x))⁻¹ = Jnp.sigmoid := by
    funext x; simp [Jnp.sigmoid]
  rw [h3] at h2
  refine h2.congr_deriv ?_
  unfold Jnp.sigmoid
  field_simp
  ring

theorem revUnary {φ d : ℝ → ℝ} {a r : RvO α ι} (ha : TRev a f θ) (hv : Tr r.v (fun y => φ (f y)) θ)
    (hb : ∀ (ct : α) c, Tr ct c θ → ∃ ct' : α, Tr ct' (fun y => c y * d (f y)) θ ∧ ∀ i, r.back ct i = a.back ct' i)
    (hd : ∀ᶠ u in 𝓝 (f θ), HasDerivAt φ (d u) u) : TRev r (fun y => φ (f y)) θ := by
  obtain ⟨G, a1, a2, a3⟩ := ha
  refine ⟨fun i y => d (f y) * G i y, hv, fun ct c h i => ?_, der_unary a3 hd⟩
  obtain ⟨ct', h1, h2⟩ := hb ct c h
  rw [h2]
  exact (a2 _ _ h1 i).of_eq (by funext y; ring)

theorem fwdUnary {φ d : ℝ → ℝ} {a r : Fw α ι} (ha : TFwd a f θ) (hv : Tr r.v (fun y => φ (f y)) θ)
    (ht : ∀ dir c, Tr (a.tan dir) c θ → Tr (r.tan dir) (fun y => c y * d (f y)) θ)
    (hd : ∀ᶠ u in 𝓝 (f θ), HasDerivAt φ (d u) u) : TFwd r (fun y => φ (f y)) θ := by
  obtain ⟨G, a1, a2, a3⟩ := ha
  refine ⟨fun i y => d (f y) * G i y, hv, fun dir => (ht dir _ (a2 dir)).of_eq ?_, der_unary a3 hd⟩
  funext y; simp only [mul_assoc, ← Finset.mul_sum]; ring

noncomputable instance : Tracer ι (RvO α ι) where
  T := TRev
  rep := fun ⟨_, h, _⟩ => h.rep
  cont := fun ⟨_, h, _⟩ => h.cont
  congr := fun ⟨G, h1, h2, h3⟩ e => ⟨G, h1.congr e, h2, by
    filter_upwards [h3, e.eventuallyEq_nhds] with y k1 k2
    exact k1.congr_of_eventuallyEq k2⟩
  lit c θ := ⟨fun _ _ => 0, Tr.lit c, fun ct x h i => (Tr.lit 0).of_eq (by funext y; ring), Eventually.of_forall fun y => by
    rw [lin_zero]; exact hasFDerivAt_const c y⟩
  add := fun ⟨G, a1, a2, a3⟩ ⟨H, b1, b2, b3⟩ => ⟨fun i y => G i y + H i y, a1.add b1, fun ct c h i => ((a2 ct c h i).add (b2 ct c h i)).of_eq (by funext y; ring), by
    filter_upwards [a3, b3] with y h1 h2; rw [lin_add]; exact h1.add h2⟩
  sub := fun ⟨G, a1, a2, a3⟩ ⟨H, b1, b2, b3⟩ => ⟨fun i y => G i y + -H i y, a1.sub b1,
    fun ct c h i => ((a2 ct c h i).add (b2 (-ct) _ h.neg i)).of_eq (by funext y; ring), by
    filter_upwards [a3, b3] with y h1 h2; rw [lin_add, lin_neg, ← sub_eq_add_neg]; exact h1.sub h2⟩
  neg := fun ⟨G, a1, a2, a3⟩ => ⟨fun i y => -G i y, a1.neg, fun ct c h i => (a2 (-ct) _ h.neg i).of_eq (by funext y; ring), by
    filter_upwards [a3] with y h1; rw [lin_neg]; exact h1.neg⟩
  mul := fun ⟨G, a1, a2, a3⟩ ⟨H, b1, b2, b3⟩ => ⟨_, a1.mul b1, fun ct c h i => ((a2 _ _ (h.mul b1) i).add (b2 _ _ (h.mul a1) i)).of_eq (by funext y; ring), der_mul a3 b3⟩
  div := fun ⟨G, a1, a2, a3⟩ ⟨H, b1, b2, b3⟩ h0 => ⟨_, a1.div b1 h0,
    fun ct c h i => ((a2 _ _ (h.div b1 h0) i).add (b2 _ _ ((h.neg.mul a1).mul ((Tr.lit 1).div (b1.mul b1) (mul_ne_zero h0 h0))) i)).of_eq (by funext y; ring), der_div a3 b3 h0⟩
  ipow h n := revUnary (φ := fun x => x ^ n) (d := fun x => n * x ^ (n - 1)) h (h.choose_spec.1.ipow n)
    (fun ct c hc => ⟨_, hc.mul ((Tr.lit (n:ℝ)).mul (h.choose_spec.1.ipow (n - 1))), fun _ => rfl⟩) (Eventually.of_forall fun u => hasDerivAt_pow n u)
  exp h := revUnary (φ := Real.exp) (d := Real.exp) h h.choose_spec.1.exp (fun ct c hc => ⟨_, hc.mul h.choose_spec.1.exp, fun _ => rfl⟩)
    (Eventually.of_forall fun u => Real.hasDerivAt_exp u)
  log h h0 := revUnary (φ := Real.log) (d := fun u => 1 / u) h (h.choose_spec.1.log h0)
    (fun ct c hc => ⟨_, (hc.div h.choose_spec.1 h0.ne').of_eq (by funext y; ring), fun _ => rfl⟩) (d_log h0)
  log10 h h0 := revUnary (φ := Jnp.log10) (d := fun u => 1 / Real.log 10 / u) h (h.choose_spec.1.log10 h0)
    (fun ct c hc => ⟨_, ((hc.div (Tr.lit _) (Real.log_pos (by norm_num)).ne').div h.choose_spec.1 h0.ne').of_eq (by funext y; ring), fun _ => rfl⟩) (d_log10 h0)
  exp10 h := revUnary (φ := Jnp.exp10) (d := fun u => Real.log 10 * Jnp.exp10 u) h h.choose_spec.1.exp10
    (fun ct c hc => ⟨_, hc.mul ((Tr.lit _).mul h.choose_spec.1.exp10), fun _ => rfl⟩) (Eventually.of_forall d_exp10)
  sqrt h h0 := revUnary (φ := Real.sqrt) (d := fun u => 0.5 / Real.sqrt u) h (h.choose_spec.1.sqrt h0)
    (fun ct c hc => ⟨_, hc.mul ((Tr.lit _).div (h.choose_spec.1.sqrt h0) (Real.sqrt_pos.2 h0).ne'), fun _ => rfl⟩) (d_sqrt h0)
  logistic h := revUnary (φ := Jnp.sigmoid) (d := fun u => Jnp.sigmoid u * (1 - Jnp.sigmoid u)) h h.choose_spec.1.logistic
    (fun ct c hc => ⟨_, hc.mul (h.choose_spec.1.logistic.mul ((Tr.lit 1).sub h.choose_spec.1.logistic)), fun _ => rfl⟩) (Eventually.of_forall d_logistic)
  pow := fun ⟨G, a1, a2, a3⟩ ⟨H, b1, b2, b3⟩ h0 => ⟨_, a1.pow b1 h0,
    fun ct c h i => ((a2 _ _ (h.mul (b1.mul (a1.pow (b1.sub (Tr.lit 1)) h0))) i).add (b2 _ _ (h.mul ((a1.log h0).mul (a1.pow b1 h0))) i)).of_eq (by funext y; ring), der_pow a3 b3 h0⟩
  sel_pos := fun hc ⟨G, a1, a2, a3⟩ ⟨H, b1, b2, b3⟩ => ⟨G, Tr.sel_pos hc a1 b1,
    fun ct c h i => ((a2 _ _ (Tr.sel_pos hc h (Tr.lit 0)) i).add (b2 _ _ (Tr.sel_pos hc (Tr.lit 0) h) i)).of_eq (by funext y; ring), a3⟩
  sel_neg := fun hc ⟨G, a1, a2, a3⟩ ⟨H, b1, b2, b3⟩ => ⟨H, Tr.sel_neg hc a1 b1,
    fun ct c h i => ((a2 _ _ (Tr.sel_neg hc h (Tr.lit 0)) i).add (b2 _ _ (Tr.sel_neg hc (Tr.lit 0) h) i)).of_eq (by funext y; ring), b3⟩
  take {n xs F θ} h k := by
    choose G h1 h2 h3 using h
    refine ⟨G k, Tr.take h1 k, fun ct c hc i => ?_, h3 k⟩
    have : ∀ j, Tr ((xs j).back (if j = k then ct else Flt.lit 0) i) (fun y => if j = k then c y * G j i y else 0) θ := by
      intro j
      by_cases hj : j = k
      · simp only [if_pos hj]; exact h2 j _ _ hc i
      · simp only [if_neg hj]; exact (h2 j _ _ (Tr.lit 0) i).of_eq (by funext y; ring)
    have := (Tr.sum this).of_eq (g := fun y => c y * G k i y) (by funext y; simp [Jnp.sum])
    have e : (Flt.take xs k).back ct i = Flt.sum fun j => (xs j).back (if j = k then ct else Flt.lit 0) i := by
      unfold Flt.take
      refine congrArg Flt.sum (funext fun j => ?_)
      congr
    rw [e]; exact this
  sum {n xs F θ} h := by
    choose G h1 h2 h3 using h
    refine ⟨fun i y => ∑ j, G j i y, Tr.sum h1, fun ct c hc i => (Tr.sum fun j => h2 j ct c hc i).of_eq ?_, der_sum h3⟩
    funext y; simp [Jnp.sum, Finset.mul_sum]

noncomputable instance : Tracer ι (Fw α ι) where
  T := TFwd
  rep := fun ⟨_, h, _⟩ => h.rep
  cont := fun ⟨_, h, _⟩ => h.cont
  congr := fun ⟨G, h1, h2, h3⟩ e => ⟨G, h1.congr e, h2, by
    filter_upwards [h3, e.eventuallyEq_nhds] with y k1 k2
    exact k1.congr_of_eventuallyEq k2⟩
  lit c θ := ⟨fun _ _ => 0, Tr.lit c, fun dir => (Tr.lit 0).of_eq (by funext y; simp), Eventually.of_forall fun y => by
    rw [lin_zero]; exact hasFDerivAt_const c y⟩
  add := fun ⟨G, a1, a2, a3⟩ ⟨H, b1, b2, b3⟩ => ⟨fun i y => G i y + H i y, a1.add b1,
    fun dir => ((a2 dir).add (b2 dir)).of_eq (by funext y; simp only [add_mul, Finset.sum_add_distrib]), by
    filter_upwards [a3, b3] with y h1 h2; rw [lin_add]; exact h1.add h2⟩
  sub := fun ⟨G, a1, a2, a3⟩ ⟨H, b1, b2, b3⟩ => ⟨fun i y => G i y + -H i y, a1.sub b1,
    fun dir => ((a2 dir).add (b2 dir).neg).of_eq (by funext y; simp only [add_mul, neg_mul, Finset.sum_add_distrib, Finset.sum_neg_distrib]), by
    filter_upwards [a3, b3] with y h1 h2; rw [lin_add, lin_neg, ← sub_eq_add_neg]; exact h1.sub h2⟩
  neg := fun ⟨G, a1, a2, a3⟩ => ⟨fun i y => -G i y, a1.neg, fun dir => (a2 dir).neg.of_eq (by funext y; simp only [neg_mul, Finset.sum_neg_distrib]), by
    filter_upwards [a3] with y h1; rw [lin_neg]; exact h1.neg⟩
  mul := fun ⟨G, a1, a2, a3⟩ ⟨H, b1, b2, b3⟩ => ⟨_, a1.mul b1, fun dir => (((a2 dir).mul b1).add ((b2 dir).mul a1)).of_eq (by
    funext y; simp only [add_mul, Finset.sum_add_distrib, mul_assoc, ← Finset.mul_sum]; ring), der_mul a3 b3⟩
  div := fun ⟨G, a1, a2, a3⟩ ⟨H, b1, b2, b3⟩ h0 => ⟨_, a1.div b1 h0,
    fun dir => (((a2 dir).div b1 h0).add (((b2 dir).neg.mul a1).mul ((Tr.lit 1).div (b1.mul b1) (mul_ne_zero h0 h0)))).of_eq (by
      funext y; simp only [add_mul, Finset.sum_add_distrib, div_mul_eq_mul_div, ← Finset.sum_div, mul_assoc, ← Finset.mul_sum]; ring), der_div a3 b3 h0⟩
  ipow h n := fwdUnary (φ := fun x => x ^ n) (d := fun x => n * x ^ (n - 1)) h (h.choose_spec.1.ipow n)
    (fun _ c hc => hc.mul ((Tr.lit (n:ℝ)).mul (h.choose_spec.1.ipow (n - 1)))) (Eventually.of_forall fun u => hasDerivAt_pow n u)
  exp h := fwdUnary (φ := Real.exp) (d := Real.exp) h h.choose_spec.1.exp (fun _ c hc => hc.mul h.choose_spec.1.exp)
    (Eventually.of_forall fun u => Real.hasDerivAt_exp u)
  log h h0 := fwdUnary (φ := Real.log) (d := fun u => 1 / u) h (h.choose_spec.1.log h0)
    (fun _ c hc => (hc.div h.choose_spec.1 h0.ne').of_eq (by funext y; ring)) (d_log h0)
  log10 h h0 := fwdUnary (φ := Jnp.log10) (d := fun u => 1 / Real.log 10 / u) h (h.choose_spec.1.log10 h0)
    (fun _ c hc => ((hc.div h.choose_spec.1 h0.ne').div (Tr.lit _) (Real.log_pos (by norm_num)).ne').of_eq (by funext y; ring)) (d_log10 h0)
  exp10 h := fwdUnary (φ := Jnp.exp10) (d := fun u => Real.log 10 * Jnp.exp10 u) h h.choose_spec.1.exp10
    (fun _ c hc => hc.mul ((Tr.lit _).mul h.choose_spec.1.exp10)) (Eventually.of_forall d_exp10)
  sqrt h h0 := fwdUnary (φ := Real.sqrt) (d := fun u => 0.5 / Real.sqrt u) h (h.choose_spec.1.sqrt h0)
    (fun _ c hc => hc.mul ((Tr.lit _).div (h.choose_spec.1.sqrt h0) (Real.sqrt_pos.2 h0).ne')) (d_sqrt h0)
  logistic h := fwdUnary (φ := Jnp.sigmoid) (d := fun u => Jnp.sigmoid u * (1 - Jnp.sigmoid u)) h h.choose_spec.1.logistic
    (fun _ c hc => hc.mul (h.choose_spec.1.logistic.mul ((Tr.lit 1).sub h.choose_spec.1.logistic))) (Eventually.of_forall d_logistic)
  pow := fun ⟨G, a1, a2, a3⟩ ⟨H, b1, b2, b3⟩ h0 => ⟨_, a1.pow b1 h0,
    fun dir => (((a2 dir).mul (b1.mul (a1.pow (b1.sub (Tr.lit 1)) h0))).add ((b2 dir).mul ((a1.log h0).mul (a1.pow b1 h0)))).of_eq (by
      funext y; simp only [add_mul, Finset.sum_add_distrib, mul_assoc, ← Finset.mul_sum]; ring), der_pow a3 b3 h0⟩
  sel_pos := fun hc ⟨G, a1, a2, a3⟩ ⟨H, b1, b2, b3⟩ => ⟨G, Tr.sel_pos hc a1 b1, fun dir => Tr.sel_pos hc (a2 dir) (b2 dir), a3⟩
  sel_neg := fun hc ⟨G, a1, a2, a3⟩ ⟨H, b1, b2, b3⟩ => ⟨H, Tr.sel_neg hc a1 b1, fun dir => Tr.sel_neg hc (a2 dir) (b2 dir), b3⟩
  take {n xs F θ} h k := by
    choose G h1 h2 h3 using h
    exact ⟨G k, Tr.take h1 k, fun dir => Tr.take (F := fun j y => ∑ i, G j i y * dir i) (fun j => h2 j dir) k, h3 k⟩
  sum {n xs F θ} h := by
    choose G h1 h2 h3 using h
    refine ⟨fun i y => ∑ j, G j i y, Tr.sum h1, fun dir => (Tr.sum fun j => h2 j dir).of_eq ?_, der_sum h3⟩
    funext y
    simp only [Jnp.sum, Finset.sum_mul]
    exact Finset.sum_comm

end levels

noncomputable instance nestTracer : (ms : List Mode) → Tracer ι (Nest ι ms)
  | [] => inferInstanceAs (Tracer ι XF)
  | .rev :: ms => letI := nestTracer ms; inferInstanceAs (Tracer ι (RvO (Nest ι ms) ι))
  | .fwd :: ms => letI := nestTracer ms; inferInstanceAs (Tracer ι (Fw (Nest ι ms) ι))

theorem lin_single [DecidableEq ι] (k : ι) : lin (fun i => if i = k then (1:ℝ) else 0) = ContinuousLinearMap.proj (R := ℝ) (φ := fun _ : ι => ℝ) k := by
  ext v; simp [lin_apply]

/-- a parameter is a correctly recorded number -/
theorem Tr.var [DecidableEq ι] (k : ι) : (ms : List Mode) → Tr (Nest.var k (θ k) ms) (fun y : ι → ℝ => y k) θ
  | [] => ⟨Rep.fin _, continuousAt_apply k θ⟩
  | .rev :: ms => ⟨fun i _ => if i = k then 1 else 0, Tr.var k ms, fun ct c h i => by
      show Tr (if i = k then ct else Flt.lit 0) _ θ
      split_ifs with hk
      · exact h.of_eq (by funext y; simp [hk])
      · exact (Tr.lit 0).of_eq (by funext y; simp [hk]), Eventually.of_forall fun y => by rw [lin_single]; exact hasFDerivAt_apply k y⟩
  | .fwd :: ms => ⟨fun i _ => if i = k then 1 else 0, Tr.var k ms, fun dir => (Tr.lit (dir k)).of_eq (by funext y; simp),
      Eventually.of_forall fun y => by rw [lin_single]; exact hasFDerivAt_apply k y⟩

theorem partial_deriv [DecidableEq ι] {G : ι → ℝ} {y : ι → ℝ} (h : HasFDerivAt f (lin G) y) (i : ι) : HasDerivAt (fun t => f (Function.update y i t)) (G i) (y i) := by
  have e : lin G (Pi.single i 1) = G i := by
    rw [lin_apply]; simp [Pi.single_apply]
  have hu : HasDerivAt (fun t => Function.update y i t) (Pi.single i (1:ℝ)) (y i) := by
    rw [hasDerivAt_pi]
    intro j
    by_cases hj : j = i
    · subst hj; simpa using hasDerivAt_id' (y j)
    · simpa [Function.update_of_ne hj, Pi.single_apply, hj] using hasDerivAt_const (y i) (y j)
  have hf : HasFDerivAt f (lin G) (Function.update y i (y i)) := by
    rw [Function.update_eq_self]; exact h
  have := hf.comp_hasDerivAt (y i) hu
  rw [e] at this
  exact this

theorem dir_deriv' {G : ι → ℝ} {y : ι → ℝ} (h : HasFDerivAt f (lin G) y) (dir : ι → ℝ) : HasDerivAt (fun t => f (y + t • dir)) (∑ i, G i * dir i) (0:ℝ) := by
  have hl : HasDerivAt (fun t : ℝ => y + t • dir) dir 0 := by
    have := ((hasDerivAt_id (0:ℝ)).smul_const dir).const_add y
    simpa using this
  have hf : HasFDerivAt f (lin G) (y + (0:ℝ) • dir) := by rw [zero_smul, add_zero]; exact h
  have := hf.comp_hasDerivAt (0:ℝ) hl
  rwa [lin_apply] at this

/-- correctly recorded numbers give the right derivatives -/
theorem Tr.derivsOk [DecidableEq ι] : (ms : List Mode) → ∀ {x : Nest ι ms} {f : (ι → ℝ) → ℝ}, Tr x f θ → Nest.DerivsOk ms x f θ
  | [], _, _, h => h.1
  | .rev :: ms, x, f, h => by
    obtain ⟨G, h1, h2, h3⟩ := h
    refine ⟨Tr.derivsOk ms h1, fun i => ⟨G i, h3.mono fun y hy => partial_deriv hy i, Tr.derivsOk ms ?_⟩⟩
    exact (h2 _ _ (Tr.lit 1) i).of_eq (by funext y; ring)
  | .fwd :: ms, x, f, h => by
    obtain ⟨G, h1, h2, h3⟩ := h
    exact ⟨Tr.derivsOk ms h1, fun dir => ⟨_, h3.mono fun y hy => dir_deriv' hy dir, Tr.derivsOk ms (h2 dir)⟩⟩

end Nested
