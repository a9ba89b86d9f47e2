import Verif.Model.Gen

/-! On plain floats the programs of `Model/Gen.lean` are the models of `Model/XF*.lean`. -/
namespace Dsps.Gen
open Flt
variable {n m k w : ℕ}

section check
theorem sel_xf_pos {c : Prop} (h : c) (a b : XF) : sel c a b = a := by
  classical
  show (if c then a else b) = a
  rw [if_pos h]
theorem sel_xf_neg {c : Prop} (h : ¬ c) (a b : XF) : sel c a b = b := by
  classical
  show (if c then a else b) = b
  rw [if_neg h]
theorem fill_xf : @fill_empty_weights_singlepoint XF _ n = @XFUtils.fill_empty_weights_singlepoint n := by
  classical
  funext x e w i
  unfold fill_empty_weights_singlepoint XFUtils.fill_empty_weights_singlepoint
  simp only
  by_cases h2 : (∀ i, XF.eqv (w i) 0) ∧ e (Fin.last (n + 1)) < x
  · rw [if_pos h2]; exact sel_xf_pos h2 _ _
  · rw [if_neg h2]
    refine (sel_xf_neg h2 _ _).trans ?_
    by_cases h1 : (∀ i, XF.eqv (w i) 0) ∧ x < e 0
    · rw [if_pos h1]; exact sel_xf_pos h1 _ _
    · rw [if_neg h1]; exact sel_xf_neg h1 _ _
theorem lgmet_weights_xf : @get_lgmet_weights_singlegal XF _ n = @XFUtils.get_lgmet_weights_singlegal n := by
  funext a b e
  unfold get_lgmet_weights_singlegal
  rw [fill_xf]; rfl
theorem triweight_gaussian_xf : @triweight_gaussian XF _ = @XFUtils.triweight_gaussian := by
  classical
  funext x m h
  unfold triweight_gaussian XFUtils.triweight_gaussian
  simp only
  by_cases h2 : (x - m) / h < -3 ∨ 3 < (x - m) / h
  · rw [if_pos h2]; exact sel_xf_pos h2 _ _
  · rw [if_neg h2]; exact sel_xf_neg h2 _ _
variable [Jnp.Dtype]
example : @calc_age_weights_from_sfh_table XF _ n m _ = @XFSed.calc_age_weights_from_sfh_table n m _ := rfl
example : @mstar_obs XF _ n _ = @XFSed.mstar_obs n _ := rfl
example : @ssp_weights XF _ = @XFSed.ssp_weights := rfl
example : @inverse_sigmoid XF _ = @XFUtils.inverse_sigmoid := rfl
example : @sigmoid XF _ = @XFUtils.sigmoid := rfl
example : @pureburst_age_weights_from_params XF _ n = @XFUtils.pureburst_age_weights_from_params n := by
  funext l p q
  unfold pureburst_age_weights_from_params
  rw [triweight_gaussian_xf]; rfl
example : @calc_lgmet_weights_from_lognormal_mdf XF _ k = @XFSed.calc_lgmet_weights_from_lognormal_mdf k := by
  funext a b e
  unfold calc_lgmet_weights_from_lognormal_mdf
  rw [lgmet_weights_xf]; rfl
example : @calc_lgmet_weights_from_lgmet_table XF _ n m k _ = @XFSed.calc_lgmet_weights_from_lgmet_table n m k _ := by
  funext a b c d e f
  unfold calc_lgmet_weights_from_lgmet_table
  rw [lgmet_weights_xf]; rfl
example : @comoving_distance_to_z XF _ = @XFPhot.comoving_distance_to_z := rfl
example : @calc_obs_mag XF _ n m _ = @XFPhot.calc_obs_mag n m _ := rfl
example : @calc_rest_mag XF _ n m _ = @XFPhot.calc_rest_mag n m _ := rfl
end check

end Dsps.Gen
