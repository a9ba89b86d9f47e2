import Verif.Props.GridRefine
import Verif.Props.RefinePhot
import Verif.Props.BurstShift

/-! C158: the ages of a burst on refined age grids (`/repo/dsps/sfh/diffburst.py`). -/
namespace Dsps.Props
open Dsps.Utils Dsps.Lemmas Dsps.Diffburst Jnp Spec Set Sfh Filter Topology
open scoped BigOperators

/-- **Specification.** the mean of `g` over the stars of a burst, whose log10 ages are distributed about `peak` up to `mx` with the triweight density -/
noncomputable def Sfh.burstMean (g : ℝ → ℝ) (peak mx : ℝ) : ℝ := ∫ v in (-3:ℝ)..3, 35 / 96 * (1 - v ^ 2 / 9) ^ 3 * g (peak + (mx - peak) / 3 * v)

lemma kernel_edge {x μ σ : ℝ} (hσ : 0 < σ) (h : 3 * σ ≤ |x - μ|) : triweight_gaussian x μ σ = 0 := by
  rcases h.lt_or_eq with h | h
  · exact (C02_triweight_density μ σ hσ).2.1 x h
  · rw [(C02_triweight_density μ σ hσ).2.2.2 x h.ge, ← sq_abs, ← h, mul_pow, show (3:ℝ) ^ 2 = 9 by norm_num, div_self (by positivity)]
    norm_num

/-- sums of samples over a uniform grid reaching beyond the kernel are trapezoid sums -/
lemma samples_trapz {n : ℕ} {x0 d : ℝ} {f : ℝ → ℝ} (h0 : f x0 = 0) (h1 : f (x0 + ((n + 1 : ℕ) : ℝ) * d) = 0) :
    d * ∑ i : Fin (n + 2), f (x0 + (i : ℕ) * d) = trapz (fun i : Fin (n + 2) => x0 + (i : ℕ) * d) (fun i => f (x0 + (i : ℕ) * d)) := by
  rw [trapz_eq]
  have e : ∀ i : Fin (n + 1), (x0 + ((i.succ : Fin (n + 2)) : ℕ) * d - (x0 + ((i.castSucc : Fin (n + 2)) : ℕ) * d)) = d := fun i => by
    simp only [Fin.val_succ, Fin.val_castSucc]; push_cast; ring
  simp only [e]
  have s1 : ∑ i : Fin (n + 2), f (x0 + (i : ℕ) * d) = ∑ i : Fin (n + 1), f (x0 + ((i.succ : Fin (n + 2)) : ℕ) * d) := by
    rw [Fin.sum_univ_succ]; simp [h0]
  have s2 : ∑ i : Fin (n + 2), f (x0 + (i : ℕ) * d) = ∑ i : Fin (n + 1), f (x0 + ((i.castSucc : Fin (n + 2)) : ℕ) * d) := by
    rw [Fin.sum_univ_castSucc]; simp only [Fin.val_last, h1, add_zero]
  have h : d * ∑ i : Fin (n + 2), f (x0 + (i : ℕ) * d) =
      d / 2 * (∑ i : Fin (n + 1), f (x0 + ((i.castSucc : Fin (n + 2)) : ℕ) * d) + ∑ i : Fin (n + 1), f (x0 + ((i.succ : Fin (n + 2)) : ℕ) * d)) := by
    rw [← s1, ← s2]; ring
  rw [h, ← Finset.sum_add_distrib, Finset.mul_sum]
  refine Finset.sum_congr rfl fun i _ => ?_
  ring

lemma burstMean_eq {g : ℝ → ℝ} {peak mx : ℝ} (h : peak < mx) :
    burstMean g peak mx = ∫ u in (peak - 3 * ((mx - peak) / 3))..(peak + 3 * ((mx - peak) / 3)), g u * triweight_gaussian u peak ((mx - peak) / 3) :=
  metMean_eq (F := fun u _ => g u) (x := 0) (by linarith)

/-- C158: **bursts on fine uniform age grids.** When the log10 ages of the grid are equally spaced, and cover the burst, the mean over the burst's age weights of any continuous function of log10 age is as near as desired
to its mean over the burst's triweight density, once the spacing is small enough: whatever the number of ages, and wherever the grid starts. -/
theorem C158_uniform {peak mx lo hi ε : ℝ} {g : ℝ → ℝ} (h : peak < mx) (hg : Continuous g) (hε : 0 < ε) :
    ∃ δ : ℝ, 0 < δ ∧ ∀ (n : ℕ) (x0 d : ℝ), 0 < d → d ≤ δ → lo ≤ x0 → x0 ≤ peak - (mx - peak) → mx ≤ x0 + ((n + 1 : ℕ) : ℝ) * d → x0 + ((n + 1 : ℕ) : ℝ) * d ≤ hi →
      |∑ i, pureburst_age_weights_from_params (fun i : Fin (n + 2) => x0 + (i : ℕ) * d) peak mx i * g (x0 + (i : ℕ) * d) - burstMean g peak mx| ≤ ε := by
  set M := burstMean g peak mx with hM
  set σ := (mx - peak) / 3 with hσd
  have hσ : 0 < σ := by rw [hσd]; linarith
  set κ := fun u => triweight_gaussian u peak σ with hκ
  have hκc : Continuous κ := continuous_triweight_gaussian peak σ
  set η := min (1 / 2) (ε / (2 * (1 + |M|))) with hη
  have hM0 : 0 < 1 + |M| := by positivity
  have hηp : 0 < η := lt_min (by norm_num) (by positivity)
  have hη1 : η ≤ 1 / 2 := min_le_left _ _
  have hη2 : η * (1 + |M|) ≤ ε / 2 := by
    have := mul_le_mul_of_nonneg_right (min_le_right (1 / 2) (ε / (2 * (1 + |M|)))) hM0.le
    rw [← hη] at this
    refine this.trans_eq ?_
    field_simp
  by_cases hL : hi < lo
  · refine ⟨1, one_pos, fun n x0 d hd _ h1 _ _ h4 => absurd h1 ?_⟩
    have : 0 ≤ ((n + 1 : ℕ) : ℝ) * d := by positivity
    linarith
  have hω : 0 < η / (hi - lo + 1) := div_pos hηp (by linarith [not_lt.mp hL])
  obtain ⟨δ1, p1, m1⟩ := modulus (a := lo) (b := hi) ((hg.mul hκc).continuousOn) hω
  obtain ⟨δ2, p2, m2⟩ := modulus (a := lo) (b := hi) (hκc.continuousOn) hω
  refine ⟨min δ1 δ2, lt_min p1 p2, fun n x0 d hd hdd hlo h0 h1 hhi => ?_⟩
  set x : Fin (n + 2) → ℝ := fun i => x0 + (i : ℕ) * d with hx
  have hmono : Monotone x := fun i j hij => by
    have : ((i : ℕ) : ℝ) ≤ (j : ℕ) := by exact_mod_cast hij
    simp only [hx]; nlinarith
  have x_0 : x 0 = x0 := by simp [hx]
  have x_l : x (Fin.last (n + 1)) = x0 + ((n + 1 : ℕ) : ℝ) * d := by simp [hx]
  have tm : ∀ (f : ℝ → ℝ), Continuous f → (∀ u ∈ Icc lo hi, ∀ y ∈ Icc lo hi, |u - y| ≤ d → |f u - f y| ≤ η / (hi - lo + 1)) →
      |trapz x (fun i => f (x i)) - ∫ y in x0..(x0 + ((n + 1 : ℕ) : ℝ) * d), f y| ≤ η := fun f hf hm => by
    have := trapz_modulus (f := f) (ω := η / (hi - lo + 1)) hmono hf.continuousOn fun i y hy => by
      have b1 : lo ≤ x i.castSucc := by have := hmono (Fin.zero_le i.castSucc); rw [x_0] at this; linarith
      have b2 : x i.succ ≤ hi := by have := hmono (Fin.le_last i.succ); rw [x_l] at this; linarith
      have e : x i.succ - x i.castSucc = d := by simp only [hx, Fin.val_succ, Fin.val_castSucc]; push_cast; ring
      have hy' := mem_Icc.mp hy
      exact ⟨hm _ ⟨by linarith, by linarith⟩ _ ⟨b1, by linarith⟩ (abs_le.mpr ⟨by linarith, by linarith⟩),
        hm _ ⟨by linarith, by linarith⟩ _ ⟨by linarith, b2⟩ (abs_le.mpr ⟨by linarith, by linarith⟩)⟩
    rw [x_0, x_l] at this
    refine this.trans ?_
    rw [div_mul_eq_mul_div, div_le_iff₀ (by linarith [not_lt.mp hL])]
    exact mul_le_mul_of_nonneg_left (by linarith) hηp.le
  have h3 : 3 * σ = mx - peak := by rw [hσd]; ring
  have k0 : κ x0 = 0 := kernel_edge hσ (by rw [h3]; exact le_abs.mpr (Or.inr (by linarith)))
  have k1 : κ (x0 + ((n + 1 : ℕ) : ℝ) * d) = 0 := kernel_edge hσ (by rw [h3]; exact le_abs.mpr (Or.inl (by linarith)))
  have hN := tm (fun u => g u * κ u) (hg.mul hκc) fun u hu y hy huy => m1 u hu y hy (huy.trans (hdd.trans (min_le_left _ _)))
  have hD := tm κ hκc fun u hu y hy huy => m2 u hu y hy (huy.trans (hdd.trans (min_le_right _ _)))
  rw [← samples_trapz (f := fun u => g u * κ u) (by simp [k0]) (by simp only [k1, mul_zero]),
    integral_support (μ := peak) (a := x0) (b := x0 + ((n + 1 : ℕ) : ℝ) * d) hσ (by rw [h3]; linarith) (by rw [h3]; linarith) hg, ← burstMean_eq h, ← hM] at hN
  have one : ∫ y in x0..(x0 + ((n + 1 : ℕ) : ℝ) * d), κ y = 1 := by
    have := integral_support (μ := peak) (g := fun _ => (1:ℝ)) hσ (a := x0) (b := x0 + ((n + 1 : ℕ) : ℝ) * d) (by rw [h3]; linarith) (by rw [h3]; linarith) continuous_const
    rw [← burstMean_eq (g := fun _ => 1) h] at this
    simp only [one_mul] at this
    rw [show κ = fun u => triweight_gaussian u peak σ from rfl, this]
    unfold burstMean
    simp only [mul_one]
    exact metKernel_one
  rw [← samples_trapz (f := κ) k0 k1, one] at hD
  set N := d * ∑ i : Fin (n + 2), g (x0 + (i : ℕ) * d) * κ (x0 + (i : ℕ) * d) with hNd
  set D := d * ∑ i : Fin (n + 2), κ (x0 + (i : ℕ) * d) with hDd
  have hD0 : 1 / 2 ≤ D := by have := (abs_le.mp hD).1; linarith
  have hs : ∃ i, x i ∈ BurstSupport peak mx := by
    by_contra hcon
    push Not at hcon
    have : D = 0 := by
      rw [hDd, Finset.sum_eq_zero fun i _ => ?_, mul_zero]
      refine kernel_edge hσ ?_
      by_contra hlt
      have hab : -(3 * σ) < x i - peak ∧ x i - peak < 3 * σ := abs_lt.mp (not_le.mp hlt)
      exact hcon i ⟨by linarith [hab.1], by linarith [hab.2]⟩
    linarith
  have hval : ∑ i, pureburst_age_weights_from_params x peak mx i * g (x0 + (i : ℕ) * d) = N / D := by
    rw [hNd, hDd, mul_div_mul_left _ _ hd.ne', Finset.sum_div]
    refine Finset.sum_congr rfl fun i _ => ?_
    rw [(pureburst_samples h hs i).2]
    show κ (x0 + (i : ℕ) * d) / (∑ j : Fin (n + 2), κ (x0 + (j : ℕ) * d)) * _ = _
    ring
  rw [hval, show N / D - M = (N - M - M * (D - 1)) / D by field_simp; ring, abs_div, abs_of_pos (by linarith : 0 < D), div_le_iff₀ (by linarith)]
  have a1 : |N - M - M * (D - 1)| ≤ η + |M| * η := (abs_sub _ _).trans (add_le_add hN (by rw [abs_mul]; exact mul_le_mul_of_nonneg_left hD (abs_nonneg _)))
  have a2 : η + |M| * η ≤ ε / 2 := by linarith [hη2]
  nlinarith

/-! ## uneven grids -/

/-- the kernel falls away from its centre -/
lemma twc_anti {s s' : ℝ} (h0 : 0 ≤ s) (h : s ≤ s') : twc s' ≤ twc s := by
  rw [twc_eq_max, twc_eq_max]
  have : (s / 3) ^ 2 ≤ (s' / 3) ^ 2 := by gcongr
  have m : max 0 (1 - (s' / 3) ^ 2) ≤ max 0 (1 - (s / 3) ^ 2) := max_le_max le_rfl (by linarith)
  gcongr

lemma twc_even (s : ℝ) : twc (-s) = twc s := by rw [twc_eq_max, twc_eq_max]; congr 4; ring

lemma sum_range_pairs (f : ℕ → ℝ) (k : ℕ) : ∑ i ∈ Finset.range (2 * k), f i = ∑ i ∈ Finset.range k, (f (2 * i) + f (2 * i + 1)) := by
  induction k with
  | zero => simp
  | succ k ih => rw [show 2 * (k + 1) = 2 * k + 1 + 1 by ring, Finset.sum_range_succ, Finset.sum_range_succ, ih, Finset.sum_range_succ]; ring

/-- **the uneven grid**: spacing `d` up to the peak, `d / 2` above it -/
noncomputable def unevenGrid (peak d : ℝ) (N j : ℕ) : ℝ := peak + d * min ((j:ℝ) - 3 * N) (((j:ℝ) - 3 * N) / 2)

lemma uneven_low {peak d : ℝ} {N j : ℕ} (h : j ≤ 3 * N) : unevenGrid peak d N j = peak + d * ((j:ℝ) - 3 * N) := by
  have : (j:ℝ) ≤ 3 * N := by exact_mod_cast h
  rw [unevenGrid, min_eq_left (by linarith)]

lemma uneven_high {peak d : ℝ} {N j : ℕ} (h : 3 * N ≤ j) : unevenGrid peak d N j = peak + d * (((j:ℝ) - 3 * N) / 2) := by
  have : 3 * (N:ℝ) ≤ j := by exact_mod_cast h
  rw [unevenGrid, min_eq_right (by linarith)]

lemma uneven_step {peak d : ℝ} (hd : 0 < d) (N j : ℕ) : d / 2 ≤ unevenGrid peak d N (j + 1) - unevenGrid peak d N j ∧ unevenGrid peak d N (j + 1) - unevenGrid peak d N j ≤ d := by
  rcases lt_or_ge j (3 * N) with h | h
  · rw [uneven_low h.le, uneven_low (by omega)]; push_cast; constructor <;> nlinarith
  · rw [uneven_high h, uneven_high (by omega)]; push_cast; constructor <;> nlinarith

/-- most of the weight lies above the peak -/
lemma uneven_share {N : ℕ} (hN : 10 ≤ N) (K : ℕ → ℝ) (hlow : ∀ j ≤ 3 * N, K j = twc (((j:ℝ) - 3 * N) / N)) (hhigh : ∀ j, 3 * N ≤ j → K j = twc (((j:ℝ) - 3 * N) / 2 / N)) :
    3 / 5 * ∑ j ∈ Finset.range (9 * N + 1), K j ≤ ∑ j ∈ Finset.range (9 * N + 1), if 3 * N < j then K j else 0 := by
  have hN0 : (0:ℝ) < N := by exact_mod_cast (by omega : 0 < N)
  have e : 9 * N + 1 = 3 * N + (1 + 2 * (3 * N)) := by ring
  rw [e, Finset.sum_range_add, Finset.sum_range_add, Finset.sum_range_add, Finset.sum_range_add]
  set A := ∑ x ∈ Finset.range (2 * (3 * N)), K (3 * N + (1 + x)) with hA
  have z1 : (∑ j ∈ Finset.range (3 * N), if 3 * N < j then K j else 0) = 0 := Finset.sum_eq_zero fun j hj => if_neg (by have := Finset.mem_range.mp hj; omega)
  have z2 : (∑ j ∈ Finset.range 1, if 3 * N < 3 * N + j then K (3 * N + j) else 0) = 0 := by simp
  have z3 : (∑ x ∈ Finset.range (2 * (3 * N)), if 3 * N < 3 * N + (1 + x) then K (3 * N + (1 + x)) else 0) = A :=
    Finset.sum_congr rfl fun x _ => if_pos (by omega)
  rw [z1, z2, z3]
  have c : ∑ x ∈ Finset.range 1, K (3 * N + x) = twc 0 := by
    rw [Finset.sum_range_one, hlow _ (by omega)]
    congr 1; push_cast; simp
  rw [c, ← Finset.sum_range_reflect]
  have hB : ∀ j ∈ Finset.range (3 * N), K (3 * N - 1 - j) = twc (((j:ℝ) + 1) / N) := fun j hj => by
    have := Finset.mem_range.mp hj
    rw [hlow _ (by omega), ← twc_even, ← neg_div]
    congr 2
    rw [Nat.cast_sub (by omega), Nat.cast_sub (by omega)]
    push_cast; ring
  rw [Finset.sum_congr rfl hB]
  have hK : ∀ x, K (3 * N + (1 + x)) = twc (((x:ℝ) + 1) / 2 / N) := fun x => by
    rw [hhigh _ (by omega)]; congr 3; push_cast; ring
  have hAB : 2 * ∑ j ∈ Finset.range (3 * N), twc (((j:ℝ) + 1) / N) ≤ A := by
    rw [hA, sum_range_pairs, Finset.mul_sum]
    refine Finset.sum_le_sum fun i _ => ?_
    rw [hK, hK]
    have l1 : twc (((i:ℝ) + 1) / N) ≤ twc ((((2 * i : ℕ) : ℝ) + 1) / 2 / N) := twc_anti (by positivity) (by push_cast; gcongr; linarith)
    have l2 : twc (((i:ℝ) + 1) / N) ≤ twc ((((2 * i + 1 : ℕ) : ℝ) + 1) / 2 / N) := twc_anti (by positivity) (by push_cast; gcongr; linarith)
    linarith
  have hnn : ∀ s, 0 ≤ twc s := twc_nonneg
  have hc : 6 * twc 0 ≤ A := by
    have q : ∀ x ∈ Finset.range 10, 9 / 10 * twc 0 ≤ K (3 * N + (1 + x)) := fun x hx => by
      have hx := Finset.mem_range.mp hx
      rw [hK]
      have : ((x:ℝ) + 1) / 2 / N ≤ 1 / 2 := by
        rw [div_le_iff₀ hN0]
        have h1 : (x:ℝ) + 1 ≤ 10 := by exact_mod_cast hx
        have h2 : (10:ℝ) ≤ N := by exact_mod_cast hN
        linarith
      refine le_trans ?_ (twc_anti (by positivity) this)
      rw [twc_eq_max, twc_eq_max, max_eq_right (by norm_num), max_eq_right (by norm_num)]
      norm_num
    have s1 := Finset.sum_le_sum q
    rw [Finset.sum_const, Finset.card_range] at s1
    have s2 : ∑ x ∈ Finset.range 10, K (3 * N + (1 + x)) ≤ A :=
      Finset.sum_le_sum_of_subset_of_nonneg (Finset.range_mono (by omega)) fun x _ _ => by rw [hK]; exact hnn _
    have := hnn 0
    simp only [nsmul_eq_mul] at s1
    push_cast at s1
    linarith
  linarith

/-- C158: **on an uneven grid the burst is distorted, however fine the grid.** Half of the burst's density lies at ages above its peak; but for every burst and every spacing there is a well-formed age grid, nowhere coarser
than that spacing and covering the whole burst, on which at least three fifths of the burst's mass is put above the peak: the package does not weigh the samples of the density by the widths of the age bins. -/
theorem C158_uneven {peak mx : ℝ} (h : peak < mx) {δ : ℝ} (hδ : 0 < δ) :
    ∫ u in peak..mx, triweight_gaussian u peak ((mx - peak) / 3) = 1 / 2 ∧
    ∃ (m : ℕ) (lgyr : Fin (m + 3) → ℝ), MildlySpaced lgyr ∧ GridMesh δ lgyr ∧ lgyr 0 = peak - (mx - peak) ∧ lgyr (Fin.last (m + 2)) = mx ∧
      3 / 5 ≤ ∑ i, if peak < lgyr i then pureburst_age_weights_from_params lgyr peak mx i else 0 := by
  set σ := (mx - peak) / 3 with hσd
  have hσ : 0 < σ := by rw [hσd]; linarith
  refine ⟨?_, ?_⟩
  · rw [integral_triweight_gaussian _ _ _ _ hσ.ne', tw_cuml_kern_eq, tw_cuml_kern_eq, sub_self, zero_div, twC_zero,
      show (mx - peak) / σ = 3 by rw [hσd, div_div_eq_mul_div, mul_comm, mul_div_assoc, div_self (by linarith), mul_one], twC_of_ge le_rfl]
    norm_num
  obtain ⟨M, hM⟩ := exists_nat_gt (σ / δ)
  set N := M + 10 with hN
  have hN0 : (0:ℝ) < N := by rw [hN]; positivity
  set d := σ / N with hd
  have hd0 : 0 < d := div_pos hσ hN0
  have hdδ : d ≤ δ := by
    rw [hd, div_le_iff₀ hN0]
    rw [div_lt_iff₀ hδ] at hM
    have : (M:ℝ) ≤ N := by rw [hN]; push_cast; linarith
    nlinarith
  have hdN : d * N = σ := by rw [hd]; field_simp
  have eN : 9 * M + 88 + 3 = 9 * N + 1 := by omega
  set x : Fin (9 * M + 88 + 3) → ℝ := fun j => unevenGrid peak d N j with hx
  have st : ∀ i : Fin (9 * M + 88 + 2), d / 2 ≤ x i.succ - x i.castSucc ∧ x i.succ - x i.castSucc ≤ d := fun i => uneven_step hd0 N i
  have hx0 : x 0 = peak - (mx - peak) := by
    simp only [hx, Fin.val_zero]
    rw [uneven_low (by omega)]
    push_cast
    have : mx - peak = 3 * σ := by rw [hσd]; ring
    rw [this, ← hdN]; ring
  have hxl : x (Fin.last (9 * M + 88 + 2)) = mx := by
    simp only [hx, Fin.val_last]
    rw [uneven_high (by omega)]
    have : mx = peak + 3 * σ := by rw [hσd]; ring
    rw [this, ← hdN, show 9 * M + 88 + 2 = 9 * N by omega]; push_cast; ring
  refine ⟨9 * M + 88, x, ⟨Fin.strictMono_iff_lt_succ.mpr fun i => by linarith [(st i).1], fun j => ?_, ?_⟩, fun i => (st i).2.trans hdδ, hx0, hxl, ?_⟩
  · have a := (st j.succ).2
    have b := (st j.castSucc).1
    linarith
  · have a := (st (Fin.last (9 * M + 88)).castSucc).2
    have b := (st (Fin.last (9 * M + 88 + 1))).1
    rw [Fin.succ_last] at b
    rw [Fin.succ_castSucc, Fin.succ_last] at a
    linarith
  have hs : ∃ i, x i ∈ BurstSupport peak mx := by
    refine ⟨⟨3 * N, by omega⟩, ?_⟩
    simp only [hx]
    rw [uneven_low le_rfl]
    push_cast
    rw [sub_self, mul_zero, add_zero]
    exact ⟨by linarith, h⟩
  obtain ⟨i0, _⟩ := id hs
  have hpos := (pureburst_samples h hs i0).1
  have e1 : (∑ i, if peak < x i then pureburst_age_weights_from_params x peak mx i else 0) =
      (∑ i, if peak < x i then triweight_gaussian (x i) peak σ else 0) / ∑ j, triweight_gaussian (x j) peak σ := by
    rw [Finset.sum_div]
    refine Finset.sum_congr rfl fun i _ => ?_
    split_ifs
    · exact (pureburst_samples h hs i).2
    · simp
  rw [e1, le_div_iff₀ hpos]
  have hk : ∀ j : ℕ, triweight_gaussian (unevenGrid peak d N j) peak σ = twc ((unevenGrid peak d N j - peak) / σ) / σ := fun j => triweight_gaussian_eq _ _ _
  have low : ∀ j ≤ 3 * N, twc ((unevenGrid peak d N j - peak) / σ) = twc (((j:ℝ) - 3 * N) / N) := fun j hj => by
    rw [uneven_low hj]; congr 1; rw [← hdN]; field_simp; ring
  have high : ∀ j, 3 * N ≤ j → twc ((unevenGrid peak d N j - peak) / σ) = twc (((j:ℝ) - 3 * N) / 2 / N) := fun j hj => by
    rw [uneven_high hj]; congr 1; rw [← hdN]; field_simp; ring
  have key := uneven_share (by omega : 10 ≤ N) (fun j => twc ((unevenGrid peak d N j - peak) / σ)) low high
  have s1 : ∑ j, triweight_gaussian (x j) peak σ = (∑ j ∈ Finset.range (9 * N + 1), twc ((unevenGrid peak d N j - peak) / σ)) / σ := by
    rw [Finset.sum_div, ← eN, ← Fin.sum_univ_eq_sum_range (fun j => twc ((unevenGrid peak d N j - peak) / σ) / σ)]
    exact Finset.sum_congr rfl fun i _ => hk i
  have s2 : (∑ i, if peak < x i then triweight_gaussian (x i) peak σ else 0) = (∑ j ∈ Finset.range (9 * N + 1), if 3 * N < j then twc ((unevenGrid peak d N j - peak) / σ) else 0) / σ := by
    rw [Finset.sum_div, ← eN, ← Fin.sum_univ_eq_sum_range (fun j => (if 3 * N < j then twc ((unevenGrid peak d N j - peak) / σ) else 0) / σ)]
    refine Finset.sum_congr rfl fun i _ => ?_
    have iff : peak < x i ↔ 3 * N < (i : ℕ) := by
      simp only [hx]
      rcases le_or_gt (i : ℕ) (3 * N) with hi | hi
      · rw [uneven_low hi]
        have : ((i : ℕ) : ℝ) ≤ 3 * N := by exact_mod_cast hi
        refine iff_of_false (not_lt.mpr ?_) (by omega)
        nlinarith
      · rw [uneven_high hi.le]
        have : 3 * (N:ℝ) < ((i : ℕ) : ℝ) := by exact_mod_cast hi
        refine iff_of_true ?_ hi
        nlinarith
    by_cases hi : 3 * N < (i : ℕ)
    · rw [if_pos hi, if_pos (iff.mpr hi)]; exact hk i
    · rw [if_neg hi, if_neg (fun hc => hi (iff.mp hc)), zero_div]
  rw [s1, s2, ← mul_div_assoc]
  exact div_le_div_of_nonneg_right key hσ.le

/-- the mean log10 age of a burst peaking at 10^5.5 yr converges to that of its density, on grids within [3, 12] -/
example : ∃ δ : ℝ, 0 < δ ∧ ∀ (n : ℕ) (x0 d : ℝ), 0 < d → d ≤ δ → 3 ≤ x0 → x0 ≤ 5.5 - (7 - 5.5) → 7 ≤ x0 + ((n + 1 : ℕ) : ℝ) * d → x0 + ((n + 1 : ℕ) : ℝ) * d ≤ 12 →
    |∑ i, pureburst_age_weights_from_params (fun i : Fin (n + 2) => x0 + (i : ℕ) * d) 5.5 7 i * (x0 + (i : ℕ) * d) - burstMean (fun u => u) 5.5 7| ≤ 1 / 100 :=
  C158_uniform (by norm_num) continuous_id (by norm_num)

/-- grids as required: from 4 in steps of 3 / (n + 1), for every n -/
example (n : ℕ) : (3:ℝ) ≤ 4 ∧ (4:ℝ) ≤ 5.5 - (7 - 5.5) ∧ (7:ℝ) ≤ 4 + ((n + 1 : ℕ) : ℝ) * (3 / (n + 1)) ∧ 4 + ((n + 1 : ℕ) : ℝ) * (3 / (n + 1)) ≤ (12:ℝ) := by
  have : ((n + 1 : ℕ) : ℝ) * (3 / (n + 1)) = 3 := by push_cast; field_simp
  rw [this]; norm_num

example : ∃ (m : ℕ) (lgyr : Fin (m + 3) → ℝ), MildlySpaced lgyr ∧ GridMesh (1 / 1000) lgyr ∧ lgyr 0 = 5.5 - (7 - 5.5) ∧ lgyr (Fin.last (m + 2)) = 7 ∧
    3 / 5 ≤ ∑ i, if 5.5 < lgyr i then pureburst_age_weights_from_params lgyr 5.5 7 i else 0 := (C158_uneven (by norm_num) (by norm_num)).2
end Dsps.Props
