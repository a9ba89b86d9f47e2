import Verif.Model.GenInverse
import Verif.Props.GradMore
import Verif.Props.Metallicity
import Verif.Props.Burst

/-! C150: gradients (`jax.grad`) of the unbounding transforms, of the comoving volume and of the power law. -/
namespace Dsps.Props
open Rev XF Dsps.Lemmas Dsps.Constants Spec Filter Topology

variable {ι : Type} [Fintype ι] {θ : ι → ℝ} {s : Prop}

/-- on plain floats these are the programs of the extended-float layer -/
example : @Gen.powerlaw_pdf XF _ = @XFUtils.powerlaw_pdf := rfl

/-! ### the comoving volume -/

section cosmo
variable {z O v u h : (ι → ℝ) → ℝ} {z' O' v' u' h' : Rv ι}

/-- C150: the differential comoving volume: gradients with respect to redshift (zero included), matter density, `w0`, `wa` and `h` are finite and exact. -/
theorem C150_volume_grad (hz' : Traced True z' z θ) (hO' : Traced True O' O θ) (hv : Traced True v' v θ) (hu : Traced True u' u θ)
    (hh' : Traced True h' h θ) (hz : -1 < z θ) (hO : PhysicalOm (O θ)) (hh : h θ ≠ 0) :
    Traced True (Gen.differential_comoving_volume_at_z z' O' v' u' h')
      (fun θ => FlatWcdm.differential_comoving_volume_at_z (z θ) (O θ) (v θ) (u θ) (h θ)) θ := by
  have hE := traced_Ez hz' hO' hv hu hz hO
  have hE0 : FlatWcdm.Ez (z θ) (O θ) (v θ) (u θ) ≠ 0 := (Ez_pos hz hO (v θ) (u θ)).ne'
  have hd : Traced True (Gen.hubble_distance_mpc h') (fun θ => FlatWcdm.hubble_distance_mpc (h θ)) θ :=
    (Traced.lit _).div ((Traced.lit 100.0).mul hh') (mul_ne_zero (by norm_num) hh)
  refine ((hd.mul ((((Traced.lit 1.0).add hz').mul (traced_angdist hz' hO' hv hu hh' hz hO hh)).ipow 2)).div hE hE0).congr ?_
  funext θ
  unfold FlatWcdm.differential_comoving_volume_at_z
  simp only
  rw [show (2.0:ℝ) = ((2:ℕ):ℝ) by norm_num, Real.rpow_natCast]
end cosmo

/-- C150: in particular `jax.grad` of the volume with respect to all five arguments. -/
theorem C150_volume_jax_grad (z Om0 w0 wa h : ℝ) (hz : -1 < z) (hO : PhysicalOm Om0) (hh : h ≠ 0) :
    GradOk True
      (Gen.differential_comoving_volume_at_z (Rv.var (0 : Fin 5) (fin z)) (Rv.var 1 (fin Om0)) (Rv.var 2 (fin w0)) (Rv.var 3 (fin wa)) (Rv.var 4 (fin h)))
      (fun θ => FlatWcdm.differential_comoving_volume_at_z (θ 0) (θ 1) (θ 2) (θ 3) (θ 4)) ![z, Om0, w0, wa, h] :=
  (C150_volume_grad (θ := ![z, Om0, w0, wa, h]) (Traced.var 0) (Traced.var 1) (Traced.var 2) (Traced.var 3) (Traced.var 4) hz hO hh).gradOk

/-! ### the power law -/

section plaw
variable {x' a' b' g' : Rv ι} {x a b g : (ι → ℝ) → ℝ}

lemma rpow_ne {a b g : ℝ} (ha : 0 < a) (hab : a < b) (hg : g ≠ 0) : b ^ g - a ^ g ≠ 0 := by
  rw [sub_ne_zero]
  rcases hg.lt_or_gt with h | h
  · exact (Real.rpow_lt_rpow_of_neg ha hab h).ne
  · exact (Real.rpow_lt_rpow ha.le hab h).ne'

/-- C150: the power-law density: gradients with respect to the point, the bounds and the index are finite and exact wherever the density is documented. -/
theorem C150_powerlaw_pdf_grad (hx : Traced True x' x θ) (ha : Traced True a' a θ) (hb : Traced True b' b θ) (hg : Traced True g' g θ)
    (hx0 : 0 < x θ) (ha0 : 0 < a θ) (hab : a θ < b θ) (hg0 : g θ ≠ 0) :
    Traced True (Gen.powerlaw_pdf x' a' b' g') (fun θ => Utils.powerlaw_pdf (x θ) (a θ) (b θ) (g θ)) θ :=
  (hg.mul (hx.pow (hg.sub (Traced.lit 1)) hx0)).div ((hb.pow hg (ha0.trans hab)).sub (ha.pow hg ha0)) (rpow_ne ha0 hab hg0)

/-- C150: power-law draws are differentiable functions of bounds and index (and of the uniform deviate): the gradients are finite and exact. -/
theorem C150_powerlaw_rvs_grad (hx : Traced True x' x θ) (ha : Traced True a' a θ) (hb : Traced True b' b θ) (hg : Traced True g' g θ)
    (hx0 : 0 ≤ x θ) (hx1 : x θ ≤ 1) (ha0 : 0 < a θ) (hab : a θ < b θ) (hg0 : g θ ≠ 0) :
    Traced True (Gen.powerlaw_rvs x' a' b' g') (fun θ => Utils.powerlaw_rvs (x θ) (a θ) (b θ) (g θ)) θ := by
  have hA := ha.pow hg ha0
  have hB := hb.pow hg (ha0.trans hab)
  have pA := Real.rpow_pos_of_pos ha0 (g θ)
  have pB := Real.rpow_pos_of_pos (ha0.trans hab) (g θ)
  refine (hA.add ((hB.sub hA).mul hx)).pow ((Traced.lit 1.0).div hg hg0) ?_
  rcases hx1.lt_or_eq with h | h
  · nlinarith
  · rw [h]; linarith
end plaw

/-! ### burst parameters -/

/-- C150: the unbounded burst parameters: gradients with respect to the three burst parameters are finite and exact everywhere inside the bounds. -/
theorem C150_burst_unbounding_grad {P : Fin 3 → Rv ι} {p : (ι → ℝ) → Fin 3 → ℝ} (hp : ∀ i, Traced True (P i) (fun θ => p θ i) θ)
    (hb : BurstInBounds ⟨p θ 0, p θ 1, p θ 2⟩) :
    Traced True (Gen.get_u_params_from_params P 0) (fun θ => (Diffburst.get_u_params_from_params ⟨p θ 0, p θ 1, p θ 2⟩).u_lgfburst) θ ∧
    Traced True (Gen.get_u_params_from_params P 1) (fun θ => (Diffburst.get_u_params_from_params ⟨p θ 0, p θ 1, p θ 2⟩).u_lgyr_peak) θ ∧
    Traced True (Gen.get_u_params_from_params P 2) (fun θ => (Diffburst.get_u_params_from_params ⟨p θ 0, p θ 1, p θ 2⟩).u_lgyr_max) θ := by
  obtain ⟨⟨f0, f1⟩, ⟨p0, p1⟩, m0, m1⟩ := hb
  refine ⟨?_, ?_, ?_⟩
  · exact traced_inverse_sigmoid (hp 0) (Traced.lit _) (Traced.lit _) (Traced.lit _) (Traced.lit _)
      (by norm_num [Diffburst.LGFBURST_MIN]; exact f0) (by norm_num [Diffburst.LGFBURST_MAX]; exact f1) (by norm_num [Diffburst.LGFB_K])
  · exact traced_inverse_sigmoid (hp 1) ((Traced.lit 0.5).mul ((Traced.lit _).add (Traced.lit _))) (Traced.lit _) (Traced.lit _) (Traced.lit _)
      (by norm_num [Diffburst.LGYR_PEAK_MIN]; exact p0) (by norm_num [Diffburst.LGYR_PEAK_MAX, Diffburst.LGAGE_MAX, Diffburst.DLGAGE_MIN]; exact p1)
      (by norm_num [Diffburst.LGAGE_K])
  · have hlo := (hp 1).add (Traced.lit Diffburst.DLGAGE_MIN)
    exact traced_inverse_sigmoid (hp 2) ((Traced.lit 0.5).mul ((Traced.lit _).add hlo)) (Traced.lit _) hlo (Traced.lit _)
      (by norm_num [Diffburst.DLGAGE_MIN]; exact m0) (by norm_num [Diffburst.LGAGE_MAX]; exact m1) (by norm_num [Diffburst.LGAGE_K])

/-- C150: the bounded burst parameters: gradients with respect to the unbounded ones are finite and exact for all real values. -/
theorem C150_burst_bounding_grad {P : Fin 3 → Rv ι} {p : (ι → ℝ) → Fin 3 → ℝ} (hp : ∀ i, Traced True (P i) (fun θ => p θ i) θ) :
    Traced True (Gen.get_params_from_u_params P 0) (fun θ => (Diffburst.get_params_from_u_params ⟨p θ 0, p θ 1, p θ 2⟩).lgfburst) θ ∧
    Traced True (Gen.get_params_from_u_params P 1) (fun θ => (Diffburst.get_params_from_u_params ⟨p θ 0, p θ 1, p θ 2⟩).lgyr_peak) θ ∧
    Traced True (Gen.get_params_from_u_params P 2) (fun θ => (Diffburst.get_params_from_u_params ⟨p θ 0, p θ 1, p θ 2⟩).lgyr_max) θ := by
  have h1 : Traced True (Gen.get_params_from_u_params P 1) (fun θ => (Diffburst.get_params_from_u_params ⟨p θ 0, p θ 1, p θ 2⟩).lgyr_peak) θ :=
    traced_sigmoid (hp 1) ((Traced.lit 0.5).mul ((Traced.lit _).add (Traced.lit _))) (Traced.lit _) (Traced.lit _) (Traced.lit _)
  have hlo := h1.add (Traced.lit Diffburst.DLGAGE_MIN)
  exact ⟨traced_sigmoid (hp 0) (Traced.lit _) (Traced.lit _) (Traced.lit _) (Traced.lit _), h1,
    traced_sigmoid (hp 2) ((Traced.lit 0.5).mul ((Traced.lit _).add hlo)) (Traced.lit _) hlo (Traced.lit _)⟩

/-! ### mass-metallicity parameters -/

/-- a zero cotangent comes back as zero -/
def ZeroBack (a : Rv ι) : Prop := ∀ ct, Rep ct 0 → ∀ i, Rep (a.back ct i) 0

omit [Fintype ι] in
lemma rep_add0 {a b : XF} (h : Rep a 0) (h' : Rep b 0) : Rep (a + b) 0 := (h.add h').of_eq (add_zero 0)

lemma Traced.zeroBack {a : Rv ι} {f : (ι → ℝ) → ℝ} (h : Traced s a f θ) : ZeroBack a := fun ct hc i => by
  obtain ⟨G, -, h2, -⟩ := h
  exact (h2 ct 0 hc i).of_eq (zero_mul _)

/-- reading one entry of an array that has been recorded; the other entries need not be finite as long as zero cotangents come back as zero -/
lemma traced_take {n : ℕ} {xs : Fin n → Rv ι} {f : (ι → ℝ) → ℝ} {k : Fin n} (h : Traced s (xs k) f θ) (hz : ∀ j, j ≠ k → ZeroBack (xs j)) :
    Traced s (Flt.take xs k) f θ := by
  obtain ⟨G, h1, h2, h3⟩ := h
  refine ⟨G, h1, fun ct c hc i => ?_, h3⟩
  classical
  show Rep (XF.sum fun j => (xs j).back (if j = k then ct else 0) i) _
  have : ∀ j, Rep ((xs j).back (if j = k then ct else 0) i) (if j = k then c * G i else 0) := by
    intro j
    by_cases hj : j = k
    · subst hj; rw [if_pos rfl, if_pos rfl]; exact h2 _ _ hc i
    · rw [if_neg hj, if_neg hj]; exact hz j hj 0 (Rep.fin 0) i
  refine (rep_sum this).of_eq ?_
  simp [Jnp.sum]

/-- the back-propagator of the inverse sigmoid with constant bounds -/
lemma inverse_back {ι : Type} {P : Rv ι} {c : ℝ × ℝ} (ct : XF) (i : ι) :
    (Gen.get_square_unbounded_param P c).back ct i =
      (0 + (0 + 0)) + (((((0 + 0) + (P.back (-(-ct / fin Umzr.BOUNDING_K / ((fin c.2 - fin c.1) / (P.v - fin c.1) - fin 1)) * (fin c.2 - fin c.1) *
        (1 / ((P.v - fin c.1) * (P.v - fin c.1)))) i + 0)) + 0)) + 0) := by
  rfl

lemma zeroBack_unbounded {P : Rv ι} {p : (ι → ℝ) → ℝ} {c : ℝ × ℝ} (hp : Traced s P p θ) (h0 : p θ ≠ c.1) (h1 : p θ ≠ c.2) (hc : c.1 ≠ c.2) :
    ZeroBack (Gen.get_square_unbounded_param P c) := fun ct h i => by
  rw [inverse_back]
  have hk : Umzr.BOUNDING_K ≠ 0 := by norm_num [Umzr.BOUNDING_K]
  have hd : p θ - c.1 ≠ 0 := sub_ne_zero.2 h0
  have hL : (c.2 - c.1) / (p θ - c.1) - 1 ≠ 0 := by
    rw [sub_ne_zero, ne_eq, div_eq_one_iff_eq hd]; exact fun h => h1 (by linarith)
  have z : Rep (0 : XF) 0 := Rep.fin 0
  have hn := (Rep.fin c.2).sub (Rep.fin c.1)
  have hy := hp.rep.sub (Rep.fin c.1)
  have r := ((((h.neg.div (Rep.fin Umzr.BOUNDING_K) hk).div ((hn.div hy hd).sub (Rep.fin 1)) hL).neg).mul hn).mul ((Rep.fin 1).div (hy.mul hy) (mul_ne_zero hd hd))
  have := Traced.zeroBack hp _ (r.of_eq (by ring)) i
  exact rep_add0 (rep_add0 z (rep_add0 z z)) (rep_add0 (rep_add0 (rep_add0 (rep_add0 z z) (rep_add0 this z)) z) z)

lemma square_lt (i : Fin 9) : (Umzr.MZR_PBDICT i).1 < (Umzr.MZR_PBDICT i).2 := by
  fin_cases i <;> norm_num [Umzr.MZR_PBDICT]

lemma admissible_square {p : Fin 9 → ℝ} (h : MzrAdmissible (Umzr.MZRParams.ofArray p)) (i : Fin 9) (hi : i ≠ 4) :
    (Umzr.MZR_PBDICT i).1 < p i ∧ p i < (Umzr.MZR_PBDICT i).2 := by
  obtain ⟨⟨h0, h1, h2, h3, h5, h6, h7, h8⟩, -, -⟩ := h
  simp only [Umzr.MZRParams.ofArray] at h0 h1 h2 h3 h5 h6 h7 h8
  fin_cases i
  · show (-1.0:ℝ) < p 0 ∧ p 0 < 0.25; constructor <;> linarith [h0.1, h0.2]
  · show (10.25:ℝ) < p 1 ∧ p 1 < 10.75; constructor <;> linarith [h1.1, h1.2]
  · show (0.5:ℝ) < p 2 ∧ p 2 < 2; constructor <;> linarith [h2.1, h2.2]
  · show (0.1:ℝ) < p 3 ∧ p 3 < 1.0; constructor <;> linarith [h3.1, h3.2]
  · exact absurd rfl hi
  · show (-2.0:ℝ) < p 5 ∧ p 5 < -1.0; constructor <;> linarith [h5.1, h5.2]
  · show (0.0:ℝ) < p 6 ∧ p 6 < 0.5; constructor <;> linarith [h6.1, h6.2]
  · show (-1.5:ℝ) < p 7 ∧ p 7 < -0.5; constructor <;> linarith [h7.1, h7.2]
  · show (0.0:ℝ) < p 8 ∧ p 8 < 0.5; constructor <;> linarith [h8.1, h8.2]

section mzr
variable {P : Fin 9 → Rv ι} {p : (ι → ℝ) → Fin 9 → ℝ}

lemma traced_square (hp : ∀ i, Traced s (P i) (fun θ => p θ i) θ) (hb : MzrAdmissible (Umzr.MZRParams.ofArray (p θ))) (i : Fin 9) (hi : i ≠ 4) :
    Traced s (Gen.get_square_unbounded_param (P i) (Umzr.MZR_PBDICT i)) (fun θ => Umzr.get_square_unbounded_param (p θ i) (Umzr.MZR_PBDICT i)) θ :=
  traced_inverse_sigmoid (hp i) ((Traced.lit 0.5).mul ((Traced.lit _).add (Traced.lit _))) (Traced.lit _) (Traced.lit _) (Traced.lit _)
    (admissible_square hb i hi).1 (admissible_square hb i hi).2 (by norm_num [Umzr.BOUNDING_K])

/-- C150: the unbounded mass-metallicity parameters: gradients with respect to all nine parameters are finite and exact for every admissible parameter
vector with `mzr_t0_slope_hi` different from 0.3 (also above 0.3). -/
theorem C150_mzr_unbounding_grad (hp : ∀ i, Traced True (P i) (fun θ => p θ i) θ) (hb : MzrAdmissible (Umzr.MZRParams.ofArray (p θ))) (h3 : p θ 4 ≠ 0.3) (i : Fin 9) :
    Traced True (Gen.get_unbounded_mzr_params P i) (fun θ => (Umzr.get_unbounded_mzr_params (Umzr.MZRParams.ofArray (p θ))).toArray i) θ := by
  have hhi : 0 < p θ 4 ∧ p θ 4 < p θ 3 := hb.2
  unfold Gen.get_unbounded_mzr_params
  by_cases hi : i = 4
  · subst hi
    rw [Function.update_self]
    exact traced_inverse_sigmoid (hp 4) (Traced.lit 0.0) (Traced.lit _) (Traced.lit _) (hp 3) (by show (0.0:ℝ) < p θ 4; linarith [hhi.1]) hhi.2
      (by norm_num [Umzr.BOUNDING_K])
  · rw [Function.update_of_ne hi]
    have h := traced_square hp hb i hi
    refine (traced_take (xs := fun i => Gen.get_square_unbounded_param (P i) (Umzr.MZR_PBDICT i)) (k := i) h fun j hj => ?_).congr ?_
    · by_cases h4 : j = 4
      · subst h4
        refine zeroBack_unbounded (hp 4) ?_ ?_ (square_lt 4).ne
        · show p θ 4 ≠ 0.0; exact (by linarith [hhi.1] : (0.0:ℝ) < p θ 4).ne'
        · show p θ 4 ≠ 0.3; exact h3
      · exact Traced.zeroBack (traced_square hp hb j h4)
    · funext θ
      fin_cases i <;> first | rfl | exact absurd rfl hi
end mzr

/-- C150: in particular `jax.grad` with respect to the nine parameters. -/
theorem C150_mzr_unbounding_jax_grad (p : Fin 9 → ℝ) (hb : MzrAdmissible (Umzr.MZRParams.ofArray p)) (h3 : p 4 ≠ 0.3) (i : Fin 9) :
    GradOk True (Gen.get_unbounded_mzr_params (fun j => Rv.var j (fin (p j))) i)
      (fun p => (Umzr.get_unbounded_mzr_params (Umzr.MZRParams.ofArray p)).toArray i) p :=
  (C150_mzr_unbounding_grad (p := fun p => p) (θ := p) (fun j => Traced.var j) hb h3 i).gradOk

/-- C150: **the gradient is nan at `mzr_t0_slope_hi = 0.3`**: there the unbounded parameters are finite and differentiable, but `jax.grad` of every one of them except
`u_mzr_t0_slope_hi` with respect to `mzr_t0_slope_hi` is nan (the derivative is zero). -/
theorem C150_mzr_unbounding_nan (p : Fin 9 → ℝ) (hb : MzrAdmissible (Umzr.MZRParams.ofArray p)) (h3 : p 4 = 0.3) (i : Fin 9) (hi : i ≠ 4) :
    let r := Gen.get_unbounded_mzr_params (fun j => Rv.var j (fin (p j))) i
    let f := fun p => (Umzr.get_unbounded_mzr_params (Umzr.MZRParams.ofArray p)).toArray i
    Rep r.v (f p) ∧ r.grad 4 = nan ∧ HasDerivAt (fun t => f (Function.update p 4 t)) 0 (p 4) := by
  intro r f
  have er : r = Flt.take (fun j => Gen.get_square_unbounded_param (Rv.var j (fin (p j))) (Umzr.MZR_PBDICT j)) i := Function.update_of_ne hi _ _
  have ef : ∀ q, f q = Umzr.get_square_unbounded_param (q i) (Umzr.MZR_PBDICT i) := fun q => by
    fin_cases i <;> first | rfl | exact absurd rfl hi
  refine ⟨?_, ?_, ?_⟩
  · rw [er, ef]
    exact (traced_square (s := True) (p := fun p => p) (θ := p) (fun j => Traced.var j) hb i hi).rep
  · rw [er]
    classical
    show (XF.sum fun j => (Gen.get_square_unbounded_param (Rv.var j (fin (p j))) (Umzr.MZR_PBDICT j)).back (if j = i then 1 else 0) 4) = nan
    apply XF.sum_nan (i := (4 : Fin 9))
    rw [if_neg (fun h => hi h.symm), inverse_back]
    have hk : Umzr.BOUNDING_K ≠ 0 := by norm_num [Umzr.BOUNDING_K]
    have e1 : (Umzr.MZR_PBDICT 4).1 = 0 := by show (0.0:ℝ) = 0; norm_num
    have e2 : (Umzr.MZR_PBDICT 4).2 = 0.3 := rfl
    have hn := (Rep.fin (Umzr.MZR_PBDICT 4).2).sub (Rep.fin (Umzr.MZR_PBDICT 4).1)
    have hy := (Rep.fin (p 4)).sub (Rep.fin (Umzr.MZR_PBDICT 4).1)
    have hL := ((hn.div hy (by rw [e1, h3]; norm_num)).sub (Rep.fin 1)).of_eq (show _ = (0:ℝ) by rw [e1, e2, h3]; norm_num)
    have hq := ((Rep.fin (0:ℝ)).neg.div (Rep.fin Umzr.BOUNDING_K) hk).of_eq (show _ = (0:ℝ) by simp)
    have hnan : (-(0:XF)) / fin Umzr.BOUNDING_K / ((fin (Umzr.MZR_PBDICT 4).2 - fin (Umzr.MZR_PBDICT 4).1) / ((Rv.var (4 : Fin 9) (fin (p 4))).v - fin (Umzr.MZR_PBDICT 4).1) - fin 1) = nan := by
      have := hq.div_zero hL
      rwa [if_pos rfl] at this
    rw [hnan]
    show (0 + (0 + 0)) + (((((0 + 0) + ((Rv.var (4 : Fin 9) (fin (p 4))).back nan 4 + 0)) + 0)) + 0) = nan
    show (0 + (0 + 0)) + (((((0 + 0) + ((if (4 : Fin 9) = 4 then nan else 0) + 0)) + 0)) + 0) = nan
    rw [if_pos rfl, nan_add, add_nan, nan_add, nan_add, add_nan]
  · have : (fun t => f (Function.update p 4 t)) = fun _ => f p := by
      funext t; rw [ef, ef, Function.update_of_ne hi]
    rw [this]; exact hasDerivAt_const _ _

/-! ### The hypotheses can be met -/

example := C150_volume_jax_grad 0 0.3 (-1) 0 0.7 (by norm_num) ⟨by norm_num, by norm_num⟩ (by norm_num)
example := C150_powerlaw_pdf_grad (θ := ![2, 1, 3, -1.5]) (x := fun θ => θ 0) (a := fun θ => θ 1) (b := fun θ => θ 2) (g := fun θ => θ 3) (Traced.var 0) (Traced.var 1)
  (Traced.var 2) (Traced.var 3) (by norm_num) (by norm_num) (by show (1:ℝ) < 3; norm_num)
  (by show (-1.5:ℝ) ≠ 0; norm_num)
example := C150_powerlaw_rvs_grad (θ := ![0.25, 1, 3, -1.5]) (x := fun θ => θ 0) (a := fun θ => θ 1) (b := fun θ => θ 2) (g := fun θ => θ 3) (Traced.var 0) (Traced.var 1)
  (Traced.var 2) (Traced.var 3) (by norm_num) (by norm_num) (by norm_num) (by show (1:ℝ) < 3; norm_num)
  (by show (-1.5:ℝ) ≠ 0; norm_num)
example := C150_burst_unbounding_grad (p := fun p => p) (θ := ![-2, 6, 7.5]) (fun j => Traced.var j)
  (by show BurstInBounds ⟨-2, 6, 7.5⟩; norm_num [BurstInBounds])
example := C150_burst_bounding_grad (p := fun p => p) (θ := ![-2, 6, 7.5]) (fun j => Traced.var j)
/-- the default parameters -/
example (i : Fin 9) := C150_mzr_unbounding_jax_grad Umzr.DEFAULT_MZR_PARAMS.toArray default_mzr_admissible (by show Umzr.DEFAULT_MZR_PARAMS.mzr_t0_slope_hi ≠ 0.3; norm_num [Umzr.DEFAULT_MZR_PARAMS]) i
/-- the default parameters with `slope_hi` raised to 0.3 -/
example (i : Fin 9) (hi : i ≠ 4) := C150_mzr_unbounding_nan ({ Umzr.DEFAULT_MZR_PARAMS with mzr_t0_slope_hi := 0.3 } : Umzr.MZRParams).toArray
  (by show MzrAdmissible { Umzr.DEFAULT_MZR_PARAMS with mzr_t0_slope_hi := 0.3 }
      norm_num [MzrAdmissible, MzrSquareBounds, Umzr.DEFAULT_MZR_PARAMS]) rfl i hi

end Dsps.Props
