import Mathlib.Analysis.SpecialFunctions.Gamma.Beta
import Mathlib.Analysis.SpecialFunctions.Trigonometric.ArctanDeriv
import Verif.Lemmas.Stirling
/-! The asymptotic series of the gamma function in the right half plane, with a bound for the remainder. -/

namespace EFX.Stir
open Filter Topology

/-- The term of index `k` of the series. -/
noncomputable def termC (k : ℕ) (z : ℂ) : ℂ := (bernoulli (2 * k) : ℂ) / ((2 * k : ℂ) * (2 * k - 1)) * (1 / z ^ (2 * k - 1))

/-- The first part of the expansion. -/
noncomputable def f0C (z : ℂ) : ℂ := (z - 1 / 2) * Complex.log z - z + Real.log (2 * Real.pi) / 2

/-- The expansion with the terms of index 1 to `N`. -/
noncomputable def fNC (N : ℕ) (z : ℂ) : ℂ := f0C z + ∑ k ∈ Finset.range N, termC (k + 1) z

/-- Derivatives of `log (z + t)`: `hhC j` is the derivative of order `j + 1`. -/
noncomputable def hhC (z : ℂ) (j : ℕ) (t : ℝ) : ℂ := (-1) ^ j * (j.factorial : ℂ) / (z + t) ^ (j + 1)

theorem hasDerivAt_addC (z : ℂ) (t : ℝ) : HasDerivAt (fun t : ℝ => z + (t : ℂ)) 1 t := by
  have := (Complex.ofRealCLM.hasDerivAt (x := t)).const_add z
  simpa using this

theorem hasDerivAt_hhC {z : ℂ} {t : ℝ} (h : z + t ≠ 0) (j : ℕ) : HasDerivAt (hhC z j) (hhC z (j + 1) t) t := by
  have h2 := (((hasDerivAt_addC z t).pow (j + 1)).inv (pow_ne_zero _ h)).const_mul ((-1) ^ j * (j.factorial : ℂ))
  have e : hhC z j = fun t : ℝ => (-1) ^ j * (j.factorial : ℂ) * ((fun t : ℝ => z + (t : ℂ)) ^ (j + 1))⁻¹ t := by
    funext s; simp [hhC, div_eq_mul_inv]
  rw [e]
  refine h2.congr_deriv ?_
  unfold hhC
  rw [Nat.factorial_succ]
  simp only [Pi.pow_apply]
  push_cast
  field_simp
  ring

theorem ne_of_re {z : ℂ} {t : ℝ} (hz : 0 < z.re) (ht : 0 ≤ t) : z + t ≠ 0 := by
  intro h
  have := congrArg Complex.re h
  simp at this
  linarith

theorem slit_of_re {z : ℂ} {t : ℝ} (hz : 0 < z.re) (ht : 0 ≤ t) : z + t ∈ Complex.slitPlane := by
  left
  simp
  linarith

/-- The function whose increment over the unit interval is the defect of the functional equation. -/
noncomputable def GGC (z : ℂ) (M : ℕ) (t : ℝ) : ℂ :=
  ((z + t) * Complex.log (z + t) - (z + t)) - (bernoulliFun 1 t : ℂ) * Complex.log (z + t) +
    ∑ j ∈ Finset.range M, (-1) ^ (j + 2) * ((bernoulliFun (j + 2) t : ℂ) / ((j + 2).factorial : ℂ)) * hhC z j t

theorem hasDerivAt_bernC (k : ℕ) (t : ℝ) : HasDerivAt (fun t : ℝ => (bernoulliFun k t : ℂ)) (k * (bernoulliFun (k - 1) t : ℂ)) t := by
  have := (hasDerivAt_bernoulliFun k t).ofReal_comp
  simpa using this

theorem hasDerivAt_GGC {z : ℂ} {t : ℝ} (hz : 0 < z.re) (ht : 0 ≤ t) (M : ℕ) :
    HasDerivAt (GGC z M) ((-1) ^ (M + 1) * ((bernoulliFun (M + 1) t : ℂ) / ((M + 1).factorial : ℂ)) * hhC z M t) t := by
  have h0 := ne_of_re hz ht
  have h1 := hasDerivAt_addC z t
  have h2 : HasDerivAt (fun t : ℝ => Complex.log (z + t)) (hhC z 0 t) t := by
    have := h1.clog_real (slit_of_re hz ht)
    simpa [hhC] using this
  induction M with
  | zero =>
    have h3 := ((h1.mul h2).sub h1).sub ((hasDerivAt_bernC 1 t).mul h2)
    have e : GGC z 0 = fun t : ℝ => ((z + t) * Complex.log (z + t) - (z + t)) - (bernoulliFun 1 t : ℂ) * Complex.log (z + t) := by
      funext s; simp [GGC]
    rw [e]
    refine h3.congr_deriv ?_
    simp [hhC]
    field_simp
    ring
  | succ M ih =>
    have h3 := ((hasDerivAt_bernC (M + 2) t).div_const ((M + 2).factorial : ℂ)).const_mul ((-1 : ℂ) ^ (M + 2))
    have h4 := ih.add (h3.mul (hasDerivAt_hhC h0 M))
    have e : GGC z (M + 1) = fun t : ℝ => GGC z M t + (-1) ^ (M + 2) * ((bernoulliFun (M + 2) t : ℂ) / ((M + 2).factorial : ℂ)) * hhC z M t := by
      funext s; simp only [GGC, Finset.sum_range_succ]; ring
    rw [e]
    refine h4.congr_deriv ?_
    rw [show M + 2 - 1 = M + 1 by omega, show M + 1 + 1 = M + 2 by omega, Nat.factorial_succ (M + 1)]
    have f1 : ((M + 1).factorial : ℂ) ≠ 0 := by exact_mod_cast (Nat.factorial_pos _).ne'
    push_cast
    have f2 : ((M : ℂ) + 1 + 1) ≠ 0 := by exact_mod_cast (show (M + 1 + 1 : ℕ) ≠ 0 by omega)
    field_simp
    ring

theorem GGC_diff {z : ℂ} (hz : 0 < z.re) (N : ℕ) :
    GGC z (2 * N + 1) 1 - GGC z (2 * N + 1) 0 = fNC (N + 1) (z + 1) - fNC (N + 1) z - Complex.log z := by
  have z0 : z ≠ 0 := by rintro rfl; simp at hz
  have z1 : z + 1 ≠ 0 := by have := ne_of_re (t := 1) hz zero_le_one; simpa using this
  have hs : ∀ N : ℕ, (∑ j ∈ Finset.range (2 * N + 1), (-1 : ℂ) ^ (j + 2) * ((bernoulliFun (j + 2) 1 : ℂ) / ((j + 2).factorial : ℂ)) * hhC z j 1) -
      (∑ j ∈ Finset.range (2 * N + 1), (-1 : ℂ) ^ (j + 2) * ((bernoulliFun (j + 2) 0 : ℂ) / ((j + 2).factorial : ℂ)) * hhC z j 0) =
      ∑ k ∈ Finset.range (N + 1), (termC (k + 1) (z + 1) - termC (k + 1) z) := by
    have one : ∀ k : ℕ, (-1 : ℂ) ^ (2 * k + 2) * ((bernoulliFun (2 * k + 2) 1 : ℂ) / ((2 * k + 2).factorial : ℂ)) * hhC z (2 * k) 1 -
        (-1 : ℂ) ^ (2 * k + 2) * ((bernoulliFun (2 * k + 2) 0 : ℂ) / ((2 * k + 2).factorial : ℂ)) * hhC z (2 * k) 0 =
        termC (k + 1) (z + 1) - termC (k + 1) z := by
      intro k
      rw [bernoulliFun_endpoints_eq_of_ne_one (by omega), bernoulliFun_eval_zero]
      unfold hhC termC
      have e1 : (-1 : ℂ) ^ (2 * k + 2) = 1 := by rw [pow_add, pow_mul]; norm_num
      have e2 : (-1 : ℂ) ^ (2 * k) = 1 := by rw [pow_mul]; norm_num
      rw [e1, e2, Nat.factorial_succ, Nat.factorial_succ, show 2 * (k + 1) - 1 = 2 * k + 1 by omega, show 2 * (k + 1) = 2 * k + 2 by ring]
      have f1 : ((2 * k).factorial : ℂ) ≠ 0 := by exact_mod_cast (Nat.factorial_pos _).ne'
      have f2 : (2 * (k : ℂ) + 1) ≠ 0 := by exact_mod_cast (show (2 * k + 1 : ℕ) ≠ 0 by omega)
      push_cast
      have f5 : (2 * (k : ℂ) + 1 + 1) ≠ 0 := by exact_mod_cast (show (2 * k + 1 + 1 : ℕ) ≠ 0 by omega)
      rw [add_zero, show 2 * ((k : ℂ) + 1) - 1 = 2 * k + 1 by ring, show 2 * ((k : ℂ) + 1) = 2 * k + 1 + 1 by ring]
      field_simp
    intro N
    induction N with
    | zero =>
      simpa using one 0
    | succ N ih =>
      rw [show 2 * (N + 1) + 1 = 2 * N + 1 + 1 + 1 by ring, Finset.sum_range_succ, Finset.sum_range_succ, Finset.sum_range_succ _ (2 * N + 1 + 1),
        Finset.sum_range_succ _ (2 * N + 1), Finset.sum_range_succ _ (N + 1), ← ih, ← one (N + 1)]
      have b0 : bernoulliFun (2 * N + 1 + 2) 0 = 0 := by
        rw [bernoulliFun_eval_zero, bernoulli_eq_zero_of_odd (by exact ⟨N + 1, by ring⟩) (by omega), Rat.cast_zero]
      have b1 : bernoulliFun (2 * N + 1 + 2) 1 = 0 := by
        rw [bernoulliFun_endpoints_eq_of_ne_one (by omega), b0]
      rw [b0, b1, show 2 * (N + 1) + 2 = 2 * N + 1 + 1 + 2 by ring, show 2 * (N + 1) = 2 * N + 1 + 1 by ring]
      push_cast
      ring
  have h := hs N
  unfold GGC
  rw [bernoulliFun_one, bernoulliFun_one]
  push_cast
  rw [add_zero]
  rw [Finset.sum_sub_distrib] at h
  unfold fNC f0C
  linear_combination h

/-- The constant of the bound of the defect. -/
noncomputable def KK (N : ℕ) (r : ℝ) : ℝ := |(bernoulli (2 * (N + 1)) : ℝ)| / (2 * N + 2) / r ^ (2 * N + 1)

theorem defectC_le {w : ℂ} (hw : 0 < w.re) (N : ℕ) {r n : ℝ} (hr : 0 < r) (hb : ∀ t : ℝ, 0 ≤ t → r ^ 2 + (n + t) ^ 2 ≤ ‖w + t‖ ^ 2) :
    ‖fNC (N + 1) (w + 1) - fNC (N + 1) w - Complex.log w‖ ≤ KK N r * (Real.arctan ((n + 1) / r) - Real.arctan (n / r)) := by
  rw [← GGC_diff hw]
  have hB : ∀ t : ℝ, HasDerivAt (fun t => KK N r * (Real.arctan ((n + t) / r) - Real.arctan (n / r)))
      (KK N r * (r / (r ^ 2 + (n + t) ^ 2))) t := by
    intro t
    have h1 : HasDerivAt (fun t : ℝ => (n + t) / r) (1 / r) t := ((hasDerivAt_id t).const_add n).div_const r
    have h2 := (h1.arctan.sub_const (Real.arctan (n / r))).const_mul (KK N r)
    refine h2.congr_deriv ?_
    have : (0 : ℝ) < r ^ 2 + (n + t) ^ 2 := by positivity
    congr 1
    field_simp
  have hG : ∀ t : ℝ, 0 ≤ t → HasDerivAt (fun t => GGC w (2 * N + 1) t - GGC w (2 * N + 1) 0) _ t :=
    fun t ht => (hasDerivAt_GGC hw ht (2 * N + 1)).sub_const _
  have key := image_norm_le_of_norm_deriv_right_le_deriv_boundary' (a := (0 : ℝ)) (b := 1)
    (f := fun t => GGC w (2 * N + 1) t - GGC w (2 * N + 1) 0)
    (B := fun t => KK N r * (Real.arctan ((n + t) / r) - Real.arctan (n / r)))
    (fun t ht => (hG t ht.1).continuousAt.continuousWithinAt) (fun t ht => (hG t ht.1).hasDerivWithinAt) (by simp)
    (fun t _ => (hB t).continuousAt.continuousWithinAt) (fun t _ => (hB t).hasDerivWithinAt) ?_ (Set.right_mem_Icc.2 zero_le_one)
  · exact key
  · intro t ht
    have hb' := bernoulliFun_abs_le (k := N + 1) (by omega) ht.1 ht.2.le
    have hbt := hb t ht.1
    have w0 : 0 < ‖w + t‖ := norm_pos_iff.2 (ne_of_re hw ht.1)
    unfold hhC
    rw [norm_mul, norm_mul, norm_pow, norm_neg, norm_one, one_pow, one_mul, norm_div, norm_div, norm_mul, norm_pow, norm_neg, norm_one, one_pow, one_mul,
      norm_pow, Complex.norm_real, Complex.norm_natCast, Complex.norm_natCast, Nat.factorial_succ (2 * N + 1), show 2 * N + 1 + 1 = 2 * (N + 1) by ring, Real.norm_eq_abs]
    have f1 : (0 : ℝ) < ((2 * N + 1).factorial : ℝ) := by positivity
    have l1 : r ^ 2 ≤ ‖w + t‖ ^ 2 := by nlinarith [sq_nonneg (n + t)]
    have l2 : r ^ (2 * N) * (r ^ 2 + (n + t) ^ 2) ≤ ‖w + t‖ ^ (2 * (N + 1)) := by
      rw [show 2 * (N + 1) = 2 * N + 2 by ring, pow_add, pow_mul, pow_mul]
      exact mul_le_mul (pow_le_pow_left₀ (by positivity) l1 N) hbt (by positivity) (by positivity)
    have e1 : |bernoulliFun (2 * (N + 1)) t| / ((2 * (N + 1) * (2 * N + 1).factorial : ℕ) : ℝ) * (((2 * N + 1).factorial : ℝ) / ‖w + t‖ ^ (2 * (N + 1))) =
        |bernoulliFun (2 * (N + 1)) t| / (2 * N + 2) / ‖w + t‖ ^ (2 * (N + 1)) := by
      push_cast; field_simp
    rw [e1]
    have p0 : (0 : ℝ) < r ^ (2 * N) * (r ^ 2 + (n + t) ^ 2) := by positivity
    calc |bernoulliFun (2 * (N + 1)) t| / (2 * N + 2) / ‖w + t‖ ^ (2 * (N + 1))
        ≤ |(bernoulli (2 * (N + 1)) : ℝ)| / (2 * N + 2) / (r ^ (2 * N) * (r ^ 2 + (n + t) ^ 2)) := by
          apply div_le_div₀ (by positivity) _ p0 l2
          exact div_le_div_of_nonneg_right hb' (by positivity)
      _ = KK N r * (r / (r ^ 2 + (n + t) ^ 2)) := by
          unfold KK
          have : (0 : ℝ) < r ^ 2 + (n + t) ^ 2 := by positivity
          field_simp
          ring

/-- Stirling's formula for the complex sequence. -/
theorem tendsto_f0C {z : ℂ} (hz : 0 < z.re) :
    Tendsto (fun n : ℕ => Complex.Gamma (z + (n + 1 : ℕ)) * Complex.exp (-f0C (z + (n + 1 : ℕ)))) atTop (𝓝 1) := by
  have z0 : ∀ n : ℕ, z + n ≠ 0 := fun n => by have := ne_of_re (t := n) hz (by positivity); simpa using this
  have gz : Complex.Gamma z ≠ 0 := Complex.Gamma_ne_zero_of_re_pos hz
  have h1 := (Complex.GammaSeq_tendsto_Gamma z)
  have h2 : Tendsto (fun n : ℕ => Real.log (Stirling.stirlingSeq n)) atTop (𝓝 (Real.log (√Real.pi))) :=
    (Real.continuousAt_log (Real.sqrt_pos.2 Real.pi_pos).ne').tendsto.comp Stirling.tendsto_stirlingSeq_sqrt_pi
  have h2' : Tendsto (fun n : ℕ => ((Real.log (Stirling.stirlingSeq n) : ℝ) : ℂ)) atTop (𝓝 ((Real.log (√Real.pi) : ℝ) : ℂ)) :=
    (Complex.continuous_ofReal.tendsto _).comp h2
  have h3 : Tendsto (fun n : ℕ => (n : ℂ) * Complex.log (1 + (z + 1) / n)) atTop (𝓝 (z + 1)) := by
    apply Complex.tendsto_nat_mul_log_one_add_of_tendsto
    apply tendsto_nhds_of_eventually_eq
    filter_upwards [eventually_ne_atTop 0] with n hn
    exact mul_div_cancel₀ _ (by exact_mod_cast hn)
  have h4 : Tendsto (fun n : ℕ => Complex.log (1 + (z + 1) / n)) atTop (𝓝 0) := by
    have : Tendsto (fun n : ℕ => 1 + (z + 1) / (n : ℂ)) atTop (𝓝 (1 + 0)) :=
      (tendsto_const_div_atTop_nhds_zero_nat (z + 1)).const_add 1
    rw [add_zero] at this
    have h := (continuousAt_clog (x := 1) Complex.one_mem_slitPlane).tendsto.comp this
    rwa [Complex.log_one] at h
  have h5 := ((h2'.sub_const ((Real.log (√Real.pi) : ℝ) : ℂ))).add ((h3.const_sub (z + 1)).sub (h4.const_mul (z + 1 / 2)))
  rw [sub_self, sub_self, mul_zero, sub_zero, add_zero] at h5
  have h6 := ((h1.inv₀ gz).const_mul (Complex.Gamma z)).mul ((Complex.continuous_exp.tendsto _).comp h5)
  rw [mul_inv_cancel₀ gz, Complex.exp_zero, one_mul] at h6
  refine h6.congr' ?_
  filter_upwards [eventually_gt_atTop 0] with n hn
  have n0 : (0 : ℝ) < n := Nat.cast_pos.2 hn
  have nc : (n : ℂ) ≠ 0 := by exact_mod_cast hn.ne'
  have g1 : ∀ k : ℕ, Complex.Gamma (z + k) = Complex.Gamma z * ∏ j ∈ Finset.range k, (z + j) := by
    intro k
    induction k with
    | zero => simp
    | succ k ih =>
      rw [show z + ((k + 1 : ℕ) : ℂ) = z + k + 1 by push_cast; ring, Complex.Gamma_add_one _ (z0 k), ih, Finset.prod_range_succ]; ring
  have g2 := Stirling.log_stirlingSeq_formula n
  rw [Real.log_mul (by norm_num) n0.ne', Real.log_div n0.ne' (Real.exp_pos 1).ne', Real.log_exp] at g2
  have g3 : Complex.log (1 + (z + 1) / n) = Complex.log (z + (n + 1 : ℕ)) - Real.log n := by
    have e : z + ((n + 1 : ℕ) : ℂ) = ((n : ℝ) : ℂ) * (1 + (z + 1) / n) := by push_cast; field_simp; ring
    have ne : 1 + (z + 1) / (n : ℂ) ≠ 0 := by
      intro h
      exact z0 (n + 1) (by rw [e, h, mul_zero])
    rw [e, Complex.log_ofReal_mul n0 ne]; ring
  have g4 : Real.log (√Real.pi) = Real.log Real.pi / 2 := Real.log_sqrt Real.pi_pos.le
  have g5 : (Nat.factorial n : ℂ) = Complex.exp ((Real.log (n.factorial : ℝ) : ℝ) : ℂ) := by
    rw [← Complex.ofReal_exp, Real.exp_log (by positivity)]; simp
  have g6 : (n : ℂ) ^ z = Complex.exp (((Real.log n : ℝ) : ℂ) * z) := by
    rw [Complex.cpow_def_of_ne_zero nc, ← Complex.ofReal_natCast, ← Complex.ofReal_log n0.le]
  simp only [Function.comp_apply]
  rw [g1, Complex.GammaSeq, g5, g6, g2, g3, g4, f0C, Real.log_mul (by norm_num) Real.pi_pos.ne', inv_div, ← Complex.exp_add, div_eq_mul_inv, ← Complex.exp_neg]
  rw [show ∀ a b c d : ℂ, a * (b * c) * d = a * b * (c * d) from fun a b c d => by ring, ← Complex.exp_add]
  congr 2
  push_cast
  ring

theorem tendsto_termC (k : ℕ) (z : ℂ) : Tendsto (fun n : ℕ => termC (k + 1) (z + (n + 1 : ℕ))) atTop (𝓝 0) := by
  unfold termC
  rw [← mul_zero]
  refine Tendsto.const_mul _ ?_
  have h : Tendsto (fun n : ℕ => ‖z + ((n + 1 : ℕ) : ℂ)‖) atTop atTop := by
    refine tendsto_atTop_mono (f := fun n : ℕ => ((n + 1 : ℕ) : ℝ) - ‖z‖) (fun n => ?_) ?_
    · have := norm_sub_norm_le (((n + 1 : ℕ) : ℂ)) (-z)
      rw [sub_neg_eq_add, norm_neg, add_comm _ z, Complex.norm_natCast] at this
      exact this
    · exact tendsto_atTop_add_const_right _ _ (tendsto_natCast_atTop_atTop.comp (tendsto_add_atTop_nat 1))
  have h2 := ((tendsto_pow_atTop (α := ℝ) (n := 2 * (k + 1) - 1) (by omega)).comp h).inv_tendsto_atTop
  rw [tendsto_zero_iff_norm_tendsto_zero]
  refine h2.congr (fun n => ?_)
  simp

/-- Stirling's series in the right half plane, with the remainder as a correction of the exponent. -/
theorem stirlingC {z : ℂ} (hz : 0 < z.re) {N : ℕ} (hN : 1 ≤ N) :
    ∃ R : ℂ, Complex.Gamma z = Complex.exp (fNC N z + R) ∧ ‖R‖ ≤ Real.pi / 2 * (2 * N - 1) * |term N ‖z‖| := by
  obtain ⟨N, rfl⟩ : ∃ M, N = M + 1 := ⟨N - 1, by omega⟩
  have z00 : z ≠ 0 := by rintro rfl; simp at hz
  have r0 : 0 < ‖z‖ := norm_pos_iff.2 z00
  have zre : ∀ n : ℕ, 0 < (z + n).re := fun n => by simp; positivity
  have z0 : ∀ n : ℕ, z + n ≠ 0 := fun n => by have := ne_of_re (t := n) hz (by positivity); simpa using this
  obtain ⟨D, hD⟩ : ∃ D : ℕ → ℂ, D = fun n : ℕ => fNC (N + 1) (z + n + 1) - fNC (N + 1) (z + n) - Complex.log (z + n) := ⟨_, rfl⟩
  have K0 : 0 ≤ KK N ‖z‖ := by unfold KK; positivity
  have hDn : ∀ n : ℕ, ‖D n‖ ≤ KK N ‖z‖ * Real.arctan (((n + 1 : ℕ) : ℝ) / ‖z‖) - KK N ‖z‖ * Real.arctan ((n : ℝ) / ‖z‖) := by
    intro n
    rw [hD, ← mul_sub]
    have := defectC_le (zre n) N (r := ‖z‖) (n := n) r0 (fun t ht => by
      have e : z + n + t = ⟨z.re + (n + t), z.im⟩ := by apply Complex.ext <;> simp <;> ring
      rw [e, Complex.sq_norm, Complex.normSq_mk, Complex.sq_norm, Complex.normSq_apply]
      have : (0 : ℝ) ≤ n + t := by positivity
      nlinarith)
    push_cast
    exact this
  have hsum : ∀ n : ℕ, ∑ k ∈ Finset.range n, ‖D k‖ ≤ KK N ‖z‖ * (Real.pi / 2) := by
    intro n
    refine (Finset.sum_le_sum fun k _ => hDn k).trans ?_
    rw [Finset.sum_range_sub (fun k : ℕ => KK N ‖z‖ * Real.arctan ((k : ℝ) / ‖z‖))]
    have h1 := (Real.arctan_lt_pi_div_two ((n : ℝ) / ‖z‖)).le
    simp only [Nat.cast_zero, zero_div, Real.arctan_zero, mul_zero, sub_zero]
    exact mul_le_mul_of_nonneg_left h1 K0
  have hsm : Summable (fun n => ‖D n‖) := summable_of_sum_range_le (fun n => norm_nonneg _) hsum
  have hS := hsm.of_norm.hasSum
  obtain ⟨Q, hQ⟩ : ∃ Q : ℕ → ℂ, Q = fun n : ℕ => Complex.Gamma (z + n) * Complex.exp (-fNC (N + 1) (z + n)) := ⟨_, rfl⟩
  have step : ∀ n, Q n = Q (n + 1) * Complex.exp (D n) := by
    intro n
    rw [hQ, hD]
    simp only
    rw [show z + ((n + 1 : ℕ) : ℂ) = z + n + 1 by push_cast; ring, Complex.Gamma_add_one _ (z0 n), mul_assoc, ← Complex.exp_add,
      show -fNC (N + 1) (z + n + 1) + (fNC (N + 1) (z + n + 1) - fNC (N + 1) (z + n) - Complex.log (z + n)) =
        -fNC (N + 1) (z + n) - Complex.log (z + n) by ring, Complex.exp_sub, Complex.exp_log (z0 n)]
    have := z0 n
    field_simp
  have tele : ∀ n, Q 0 = Q n * Complex.exp (∑ k ∈ Finset.range n, D k) := by
    intro n
    induction n with
    | zero => simp
    | succ n ih => rw [ih, step n, Finset.sum_range_succ, mul_assoc, ← Complex.exp_add, add_comm (D n)]
  have limQ : Tendsto (fun n : ℕ => Q (n + 1)) atTop (𝓝 1) := by
    have h1 := tendsto_finsetSum (Finset.range (N + 1)) fun k _ => tendsto_termC k z
    rw [Finset.sum_const_zero] at h1
    have h2 := (Complex.continuous_exp.tendsto _).comp h1.neg
    rw [neg_zero, Complex.exp_zero] at h2
    have h3 := (tendsto_f0C hz).mul h2
    rw [one_mul] at h3
    refine h3.congr (fun n => ?_)
    rw [hQ]
    simp only [Function.comp_apply]
    rw [mul_assoc, ← Complex.exp_add]
    congr 2
    unfold fNC
    ring
  have lim : Tendsto (fun n : ℕ => Q (n + 1) * Complex.exp (∑ k ∈ Finset.range (n + 1), D k)) atTop (𝓝 (1 * Complex.exp (∑' k, D k))) :=
    limQ.mul ((Complex.continuous_exp.tendsto _).comp (hS.tendsto_sum_nat.comp (tendsto_add_atTop_nat 1)))
  have hq : Q 0 = Complex.exp (∑' k, D k) := by
    rw [one_mul] at lim
    refine tendsto_nhds_unique ?_ lim
    exact (tendsto_const_nhds (x := Q 0)).congr (fun n => tele (n + 1))
  refine ⟨∑' k, D k, ?_, ?_⟩
  · rw [Complex.exp_add, ← hq, hQ]
    simp only [Nat.cast_zero, add_zero]
    rw [mul_comm, mul_assoc, ← Complex.exp_add, neg_add_cancel, Complex.exp_zero, mul_one]
  · have h1 : ‖∑' k, D k‖ ≤ ∑' k, ‖D k‖ := norm_tsum_le_tsum_norm hsm
    have h2 : ∑' k, ‖D k‖ ≤ KK N ‖z‖ * (Real.pi / 2) := hsm.tsum_le_of_sum_range_le hsum
    refine h1.trans (h2.trans (le_of_eq ?_))
    unfold KK term
    rw [abs_mul, abs_div, show 2 * (N + 1) - 1 = 2 * N + 1 by omega]
    push_cast
    rw [abs_of_pos (show (0 : ℝ) < 2 * (N + 1) * (2 * (N + 1) - 1) by nlinarith [(Nat.cast_nonneg N : (0 : ℝ) ≤ N)]),
      abs_of_pos (show (0 : ℝ) < 1 / ‖z‖ ^ (2 * N + 1) by positivity)]
    have f2 : (2 * ((N : ℝ) + 1) - 1) ≠ 0 := by
      have := (Nat.cast_nonneg N : (0 : ℝ) ≤ N)
      linarith
    rw [show (2 : ℝ) * N + 2 = 2 * (N + 1) by ring]
    field_simp

end EFX.Stir
