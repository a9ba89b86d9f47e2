import Verif.Props.GradPhot
import Verif.Props.NonFinite
import Verif.Lemmas.GenCheck
import Verif.Cases

/-! Property C106: where the value is finite (or infinite) but `jax.grad` returns nan. -/
namespace Dsps.Props
open Rev XF Dsps.Lemmas Dsps.Constants Spec

variable {ι : Type} {n m k w : ℕ} {i : ι} {a b c : Rv ι}

/-- every cotangent back-propagates to nan in the gradient with respect to the parameter `i` -/
def NanBack (i : ι) (a : Rv ι) : Prop := ∀ ct, a.back ct i = nan

theorem NanBack.add_left (h : NanBack i a) : NanBack i (a + b) := fun ct => by
  show a.back ct i + b.back ct i = nan; rw [h, nan_add]
theorem NanBack.add_right (h : NanBack i b) : NanBack i (a + b) := fun ct => by
  show a.back ct i + b.back ct i = nan; rw [h, add_nan]
theorem NanBack.sub_left (h : NanBack i a) : NanBack i (a - b) := fun ct => by
  show a.back ct i + b.back (-ct) i = nan; rw [h, nan_add]
theorem NanBack.mul_left (h : NanBack i a) : NanBack i (a * b) := fun ct => by
  show a.back _ i + b.back _ i = nan; rw [h, nan_add]
theorem NanBack.mul_right (h : NanBack i b) : NanBack i (a * b) := fun ct => by
  show a.back _ i + b.back _ i = nan; rw [h, add_nan]
theorem NanBack.div_left (h : NanBack i a) : NanBack i (a / b) := fun ct => by
  show a.back _ i + b.back _ i = nan; rw [h, nan_add]
theorem NanBack.sel_right {p : Prop} (h : NanBack i b) : NanBack i (Flt.sel p a b) := fun ct => by
  show a.back _ i + b.back _ i = nan; rw [h, add_nan]
theorem NanBack.sum {xs : Fin n → Rv ι} {j : Fin n} (h : NanBack i (xs j)) : NanBack i (Flt.sum xs) := fun ct =>
  XF.sum_nan (i := j) (h ct)

theorem npow_nan_succ (k : ℕ) : XF.npow nan (k + 1) = nan := by
  induction k with
  | zero => rfl
  | succ k ih => exact mul_nan _

theorem npow_inf_succ (s : Bool) (k : ℕ) : ∃ t, XF.npow (inf s) (k + 1) = inf t := by
  induction k with
  | zero => exact ⟨s, rfl⟩
  | succ k ih =>
    obtain ⟨t, ht⟩ := ih
    refine ⟨xor t s, ?_⟩
    show XF.npow (inf s) (k + 1) * inf s = _
    rw [ht]; rfl

/-- a zero cotangent, or any cotangent for nan, at `z ** 7` becomes nan -/
theorem ct_ipow7 {z ct : XF} (h : z = nan ∨ (∃ s, z = inf s) ∧ Rep ct 0) : ct * (fin (7 : ℕ) * XF.npow z (7 - 1)) = nan := by
  rcases h with rfl | ⟨⟨s, rfl⟩, h0⟩
  · rw [npow_nan_succ 5, mul_nan, mul_nan]
  · obtain ⟨t, ht⟩ := npow_inf_succ s 5
    rw [ht, (Rep.fin _).mul_inf (by norm_num), h0.zero_mul_inf]

/-- the kernel with width zero back-propagates nan -/
theorem nanBack_tw {x u : ℝ} (ha : Rep a.v x) (hb : Rep b.v u) (hc : Rep c.v 0) (hi : a.back nan i = nan ∨ c.back nan i = nan) :
    NanBack i (Gen.tw_cuml_kern a b c) := by
  classical
  intro ct
  obtain ⟨z, hz⟩ : ∃ z, z = (a - b) / c := ⟨_, rfl⟩
  have hzv : z.v = nan ∨ ∃ s, z.v = inf s := by
    have e : z.v = (a.v - b.v) / c.v := by rw [hz]; rfl
    rw [e, (ha.sub hb).div_zero hc]
    split_ifs
    · exact Or.inl rfl
    · exact Or.inr ⟨_, rfl⟩
  have hzb : z.back nan i = nan := by
    rw [hz]
    show (a.back (nan / c.v) i + b.back (-(nan / c.v)) i) + c.back (-nan * (a.v - b.v) * (1 / (c.v * c.v))) i = nan
    rw [nan_div, neg_nan, nan_mul, nan_mul]
    rcases hi with h | h
    · rw [h, nan_add, nan_add]
    · rw [h, add_nan]
  have key : ∀ ct', (z.v = nan ∨ (∃ s, z.v = inf s) ∧ Rep ct' 0) →
      (-(Flt.lit 5) * Flt.ipow z 7 / Flt.lit 69984 : Rv ι).back ct' i = nan := by
    intro ct' h
    show ((-(Flt.lit 5) : Rv ι).back _ i + z.back (ct' / fin 69984 * (-(fin 5)) * (fin (7 : ℕ) * XF.npow z.v (7 - 1))) i) + _ = nan
    rw [ct_ipow7, hzb, add_nan, nan_add]
    refine h.imp id fun h => ⟨h.1, ?_⟩
    have := (h.2.div (Rep.fin 69984) (by norm_num)).mul (Rep.fin 5).neg
    simpa using this
  have hct : z.v = nan ∨ (∃ s, z.v = inf s) ∧ Rep (if Gen.lt z (-(Flt.lit 3)) then 0 else if Gen.lt (Flt.lit 3) z then 0 else ct) 0 := by
    refine hzv.imp id fun ⟨s, hs⟩ => ⟨⟨s, hs⟩, ?_⟩
    cases s
    · have h3 : Gen.lt (Flt.lit 3) z := by
        show fin 3 < z.v
        rw [hs]; show XF.lt (fin 3) (inf false); simp [XF.lt]
      split_ifs <;> exact Rep.fin 0
    · rw [if_pos]
      · exact Rep.fin 0
      · show z.v < -(fin 3)
        rw [hs]; show XF.lt (inf true) (XF.neg (fin 3)); simp [XF.neg, XF.lt]
  unfold Gen.tw_cuml_kern
  simp only
  rw [← hz]
  show (Flt.lit 1 : Rv ι).back _ i + ((Flt.lit 0 : Rv ι).back _ i + (((((-(Flt.lit 5) * Flt.ipow z 7 / Flt.lit 69984 : Rv ι).back _ i +
    _) + _) + _) + _)) = nan
  rw [key _ hct]
  simp only [nan_add, add_nan]

/-- soft binning with zero scatter back-propagates nan -/
theorem nanBack_weights {x : ℝ} (ha : Rep a.v x) (hc : Rep c.v 0) (hi : a.back nan i = nan ∨ c.back nan i = nan)
    {E : Fin (n + 2) → Rv ι} {e : Fin (n + 2) → ℝ} (hE : ∀ j, Rep (E j).v (e j)) (j : Fin (n + 1)) :
    NanBack i (Gen.get_lgmet_weights_singlegal a c E j) := by
  unfold Gen.get_lgmet_weights_singlegal Gen.fill_empty_weights_singlepoint
  simp only
  refine NanBack.sel_right (NanBack.sel_right (NanBack.div_left ?_))
  unfold Gen.triweighted_histogram Gen.triweighted_histogram_kernel
  exact NanBack.sub_left (nanBack_tw ha (hE _) hc hi)

/-- values do not depend on the recording -/
theorem value_oneHot (j i : Fin n) : (Function.update (fun _ => (Flt.lit 0 : Rv ι)) j (Flt.lit 1) i).v =
    Function.update (fun _ => (Flt.lit 0 : XF)) j (Flt.lit 1) i := by
  by_cases h : i = j
  · subst h; rw [Function.update_self, Function.update_self]; rfl
  · rw [Function.update_of_ne h, Function.update_of_ne h]; rfl

theorem value_sel (p : Prop) (a b : Rv ι) : (Flt.sel p a b : Rv ι).v = Flt.sel p a.v b.v := rfl

theorem value_weights (a c : Rv ι) (E : Fin (n + 2) → Rv ι) (j : Fin (n + 1)) :
    (Gen.get_lgmet_weights_singlegal a c E j).v = XFUtils.get_lgmet_weights_singlegal a.v c.v (fun j => (E j).v) j := by
  rw [← Gen.lgmet_weights_xf]
  unfold Gen.get_lgmet_weights_singlegal Gen.fill_empty_weights_singlepoint
  simp only
  rw [value_sel, value_sel, value_oneHot, value_oneHot]
  rfl

/-- C106: with a metallicity scatter of exactly zero the metallicity weights are the finite values 0 and 1 (if the metallicity is not on a bin edge), but
`jax.grad` of every one of them with respect to the metallicity and with respect to the scatter is nan. -/
theorem C106_zero_scatter_weights (x : ℝ) (e : Fin (n + 2) → ℝ) (he : StrictMono e) (hx : ∀ j, x ≠ e j) (j : Fin (n + 1)) :
    let W := Gen.get_lgmet_weights_singlegal (Rv.var (0 : Fin 2) (fin x)) (Rv.var 1 (fin 0)) (fun j => Flt.lit (e j)) j
    Rep W.v (if (j = 0 ∨ e j.castSucc < x) ∧ (j = Fin.last n ∨ x < e j.succ) then 1 else 0) ∧ W.grad 0 = nan ∧ W.grad 1 = nan := by
  refine ⟨?_, ?_, ?_⟩
  · rw [value_weights]; exact (C79_zero_scatter x e he).2 hx j
  · exact nanBack_weights (Rep.fin x) (Rep.fin 0) (Or.inl rfl) (fun j => Rep.fin (e j)) j 1
  · exact nanBack_weights (Rep.fin x) (Rep.fin 0) (Or.inr rfl) (fun j => Rep.fin (e j)) j 1

/-- the hypotheses are met -/
example : StrictMono (![-1, 0, 1] : Fin 3 → ℝ) ∧ ∀ j, (0.5 : ℝ) ≠ (![-1, 0, 1] : Fin 3 → ℝ) j := by
  refine ⟨?_, ?_⟩
  · rw [Fin.strictMono_iff_lt_succ]; intro i; fin_cases i <;> simp
  · intro j; fin_cases j <;> norm_num

/-- C106: the same for the SED: with scatter zero, `jax.grad` of every flux with respect to metallicity and scatter is nan, whatever the other inputs. -/
theorem C106_zero_scatter_sed [Jnp.Dtype] (gal_t gal_sfr : Fin (n + 2) → ℝ) (gal_lgmet : ℝ) (ssp_lgmet : Fin (k + 3) → ℝ)
    (ssp_lg_age : Fin (m + 3) → ℝ) (ssp_flux : Fin (k + 3) → Fin (m + 3) → Fin w → ℝ) (t_obs : ℝ) (l : Fin w) :
    let S := Gen.calc_rest_sed_sfh_table_lognormal_mdf (fun j => Flt.lit (gal_t j)) (fun j => Flt.lit (gal_sfr j)) (Rv.var (0 : Fin 2) (fin gal_lgmet))
      (Rv.var 1 (fin 0)) (fun j => Flt.lit (ssp_lgmet j)) (fun j => Flt.lit (ssp_lg_age j)) (fun a b l => Flt.lit (ssp_flux a b l)) (Flt.lit t_obs)
      (Flt.lit SFR_MIN) l
    S.grad 0 = nan ∧ S.grad 1 = nan := by
  have key : ∀ i : Fin 2, NanBack i (Gen.calc_rest_sed_sfh_table_lognormal_mdf (fun j => Flt.lit (gal_t j)) (fun j => Flt.lit (gal_sfr j))
      (Rv.var (0 : Fin 2) (fin gal_lgmet)) (Rv.var 1 (fin 0)) (fun j => Flt.lit (ssp_lgmet j)) (fun j => Flt.lit (ssp_lg_age j))
      (fun a b l => Flt.lit (ssp_flux a b l)) (Flt.lit t_obs) (Flt.lit SFR_MIN) l) := by
    intro i
    unfold Gen.calc_rest_sed_sfh_table_lognormal_mdf
    refine NanBack.mul_left ?_
    unfold Gen.sum2
    refine NanBack.sum (j := 0) (NanBack.sum (j := 0) (NanBack.mul_right ?_))
    unfold Gen.ssp_weights
    refine NanBack.div_left (NanBack.mul_left ?_)
    unfold Gen.calc_lgmet_weights_from_lognormal_mdf
    have hE := TV.edges (s := True) (θ := fun _ : Fin 2 => (0:ℝ)) (TV.lit (ι := Fin 2) ssp_lgmet) (Traced.lit LGMET_LO) (Traced.lit LGMET_HI)
    refine nanBack_weights (Rep.fin gal_lgmet) (Rep.fin 0) ?_ (fun j => (hE j).rep) 0
    fin_cases i
    · exact Or.inl rfl
    · exact Or.inr rfl
  exact ⟨key 0 1, key 1 1⟩

/-- C106: at redshift zero the distance modulus is minus infinity and its derivative with respect to the redshift is nan. -/
theorem C106_distance_modulus_z0 (Om0 w0 wa h : ℝ) (hO : PhysicalOm Om0) (hh : h ≠ 0) :
    let M := Gen.distance_modulus_to_z (Rv.var () (fin 0)) (Flt.lit Om0) (Flt.lit w0) (Flt.lit wa) (Flt.lit h)
    M.v = inf true ∧ M.grad () = nan := by
  have hD := (C105_cosmology_grad (θ := fun _ : Unit => (0:ℝ)) (Traced.var ()) (Traced.lit Om0) (Traced.lit w0) (Traced.lit wa) (Traced.lit h)
    (by norm_num) hO hh).1.rep
  have e0 : FlatWcdm.comoving_distance_to_z 0 Om0 w0 wa h = 0 := by
    rw [comoving_eq, Dtrap_zero, zero_mul]
  simp only [e0] at hD
  obtain ⟨D, hDe⟩ : ∃ D, D = Gen.comoving_distance_to_z (Rv.var () (fin 0)) (Flt.lit Om0) (Flt.lit w0) (Flt.lit wa) (Flt.lit h) := ⟨_, rfl⟩
  rw [← hDe] at hD
  have hL : Rep (D.v * (fin 1 + fin 0) * fin 1e5) 0 := by simpa using (hD.mul ((Rep.fin 1).add (Rep.fin 0))).mul (Rep.fin 1e5)
  unfold Gen.distance_modulus_to_z Gen.luminosity_distance_to_z
  simp only
  rw [← hDe]
  constructor
  · show fin 5.0 * XF.log10 (D.v * (fin 1 + fin 0) * fin 1e5) = inf true
    rw [hL.log10_zero, (Rep.fin 5.0).mul_inf (by norm_num)]
    norm_num
  · have hct : Rep (fin 1 * fin 5.0 / fin (Real.log 10)) (1 * 5.0 / Real.log 10) :=
      ((Rep.fin 1).mul (Rep.fin 5.0)).div (Rep.fin _) (Real.log_pos (by norm_num)).ne'
    have hne : (1 * 5.0 / Real.log 10 : ℝ) ≠ 0 := by
      have := Real.log_pos (x := 10) (by norm_num)
      positivity
    show fin 0 + (((D.back _ () + (fin 0 + (if () = () then
      fin 1 * fin 5.0 / fin (Real.log 10) / (D.v * (fin 1 + fin 0) * fin 1e5) * fin 1e5 * D.v else 0))) + fin 0)) = nan
    rw [if_pos rfl, hct.div_zero hL, if_neg hne, (Rep.fin 1e5).inf_mul (by norm_num), hD.inf_mul_zero]
    simp only [add_nan, nan_add]

end Dsps.Props

namespace Dsps.Props
open Rev XF Dsps.Lemmas Dsps.Constants Spec

/-- C106 applied -/
example (j : Fin 2) := C106_zero_scatter_weights (n := 1) 0.5 ![-1, 0, 1] (Case.sm3 (by norm_num) (by norm_num)) (by intro j; fin_cases j <;> norm_num) j
example := C106_distance_modulus_z0 0.3 (-1) 0 0.7 case_Om (by norm_num)

end Dsps.Props
