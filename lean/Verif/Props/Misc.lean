import Verif.Model.Mzr
import Verif.Model.StellarAgeWeights
import Verif.Props.Triweight
import Verif.Props.NonFiniteSed
import Verif.Cases

/-! Properties C88 (Maiolino et al. 2008 parabola) and C89 (default time tables). -/
namespace Dsps.Props
open Dsps.Mzr Dsps.StellarAgeWeights Dsps.Utils

/-- C88: the Maiolino et al. (2008) relation is the downward parabola with vertex (logm0, k0 - 12): symmetric about `logm0`, strictly
increasing below and strictly decreasing above it, unbounded below, with unique maximum `k0 - 12`, and second difference -0.1728 d². -/
theorem C88_maiolino_parabola (logm0 k0 : ℝ) :
    maiolino08_metallicity_evolution logm0 logm0 k0 = k0 - 12 ∧
    (∀ x, x ≠ logm0 → maiolino08_metallicity_evolution x logm0 k0 < k0 - 12) ∧
    (∀ d, maiolino08_metallicity_evolution (logm0 - d) logm0 k0 = maiolino08_metallicity_evolution (logm0 + d) logm0 k0) ∧
    StrictMonoOn (fun x => maiolino08_metallicity_evolution x logm0 k0) (Set.Iic logm0) ∧
    StrictAntiOn (fun x => maiolino08_metallicity_evolution x logm0 k0) (Set.Ici logm0) ∧
    (∀ x d, maiolino08_metallicity_evolution (x + d) logm0 k0 - 2 * maiolino08_metallicity_evolution x logm0 k0
      + maiolino08_metallicity_evolution (x - d) logm0 k0 = -0.1728 * d ^ 2) := by
  simp only [maiolino08_metallicity_evolution]
  have e12 : (-12.0 : ℝ) = -12 := by norm_num
  have ec : (0.0864 : ℝ) = 54 / 625 := by norm_num
  have ec2 : (-0.1728 : ℝ) = -108 / 625 := by norm_num
  simp only [e12, ec, ec2]
  refine ⟨by ring, fun x hx => ?_, fun d => by ring, fun x hx y hy h => ?_, fun x hx y hy h => ?_, fun x d => by ring⟩
  · have := mul_self_pos.2 (sub_ne_zero.2 hx)
    linarith
  · simp only [Set.mem_Iic] at hx hy
    norm_num; nlinarith
  · simp only [Set.mem_Ici] at hx hy
    norm_num; nlinarith

/-- C88: shifting the zero point shifts the metallicity by the same amount, and only the mass relative to `logm0` matters. -/
theorem C88_maiolino_shift (x logm0 k0 a b : ℝ) :
    maiolino08_metallicity_evolution (x + a) (logm0 + a) (k0 + b) = maiolino08_metallicity_evolution x logm0 k0 + b := by
  have e12 : (-12.0 : ℝ) = -12 := by norm_num
  have ec : (0.0864 : ℝ) = 54 / 625 := by norm_num
  simp only [maiolino08_metallicity_evolution, e12, ec]; ring

/-- non-vacuity: redshift-0.07 calibration of Maiolino et al. -/
example : maiolino08_metallicity_evolution 10 11.18 9.04 = -3.08030336 := by
  norm_num [maiolino08_metallicity_evolution]

/-- C89: the default time tables are 100 equally spaced times from 0.001 Gyr to `t0`, both included; the log table is their base-10
logarithm, and the cell widths are all equal to the spacing. -/
theorem C89_time_tables (t0 : ℝ) (h : 0.001 < t0) :
    (get_linspace_time_tables t0).1 0 = 0.001 ∧
    (get_linspace_time_tables t0).1 99 = t0 ∧
    (∀ i : Fin 99, (get_linspace_time_tables t0).1 i.succ - (get_linspace_time_tables t0).1 i.castSucc = (t0 - 0.001) / 99) ∧
    StrictMono (get_linspace_time_tables t0).1 ∧
    (∀ i, 0.001 ≤ (get_linspace_time_tables t0).1 i ∧ (get_linspace_time_tables t0).1 i ≤ t0) ∧
    (∀ i, (10:ℝ) ^ (get_linspace_time_tables t0).2.1 i = (get_linspace_time_tables t0).1 i) ∧
    (∀ i, (get_linspace_time_tables t0).2.2 i = (t0 - 0.001) / 99) ∧
    ∑ i, (get_linspace_time_tables t0).2.2 i = (t0 - 0.001) * 100 / 99 := by
  have e : ∀ i : Fin 100, (get_linspace_time_tables t0).1 i = 0.001 + i * ((t0 - 0.001) / 99) := by
    intro i
    show Jnp.linspace Constants.T_BIRTH_MIN t0 98 i = _
    unfold Jnp.linspace
    split_ifs with hi
    · subst hi
      norm_num [Constants.T_BIRTH_MIN]; ring
    · norm_num [Constants.T_BIRTH_MIN]; ring
  have ed : ∀ i : Fin 100, (get_linspace_time_tables t0).2.2 i = (t0 - 0.001) / 99 := by
    intro i
    have : (get_linspace_time_tables t0).2.2 = jax_get_dt_array (n := 97) (fun i : Fin 100 => 0.001 + i * ((t0 - 0.001) / 99)) := by
      show jax_get_dt_array (n := 97) (get_linspace_time_tables t0).1 = _
      congr 1; exact funext e
    rw [this]
    exact C06_uniform (n := 97) _ _ i
  have hd : 0 < (t0 - 0.001) / 99 := by apply div_pos <;> linarith
  refine ⟨by rw [e]; norm_num, by rw [e]; norm_num; ring, fun i => ?_, ?_, fun i => ?_, fun i => ?_, ed, ?_⟩
  · rw [e, e]; push_cast [Fin.val_succ, Fin.val_castSucc]; ring
  · intro i j hij
    rw [e, e]
    have : (i : ℝ) < j := by exact_mod_cast hij
    have := mul_lt_mul_of_pos_right this hd
    linarith
  · rw [e]
    have h1 : (i : ℝ) ≤ 99 := by exact_mod_cast Nat.lt_succ_iff.1 i.2
    have h0 : (0:ℝ) ≤ i := by positivity
    constructor
    · nlinarith
    · have := mul_le_mul_of_nonneg_right h1 hd.le
      linarith
  · show (10:ℝ) ^ Jnp.log10 ((get_linspace_time_tables t0).1 i) = _
    have : 0 < (get_linspace_time_tables t0).1 i := by
      rw [e]; have h0 : (0:ℝ) ≤ i := by positivity
      nlinarith
    exact Real.rpow_logb (by norm_num) (by norm_num) this
  · rw [Finset.sum_congr rfl fun i _ => ed i, Finset.sum_const, Finset.card_univ, Fintype.card_fin]
    norm_num; ring

/-- case: tables up to 13.8 Gyr -/
example := C89_time_tables 13.8 (by norm_num)

/-- non-vacuity: the default present-day time of dsps -/
example : (0.001 : ℝ) < 13.8 := by norm_num

end Dsps.Props
