import Mathlib.Analysis.SpecialFunctions.Gamma.BohrMollerup
import Mathlib.Analysis.SpecialFunctions.Stirling
import Mathlib.NumberTheory.ZetaValues
import Mathlib.Analysis.SpecialFunctions.Complex.LogBounds
/-! The asymptotic series of the logarithm of the gamma function, with a bound for the remainder. -/

namespace EFX.Stir
open Filter Topology

/-- The term of index `k` of the series. -/
noncomputable def term (k : ℕ) (x : ℝ) : ℝ := (bernoulli (2 * k) : ℝ) / ((2 * k : ℝ) * (2 * k - 1)) * (1 / x ^ (2 * k - 1))

/-- The first part of the expansion. -/
noncomputable def f0 (x : ℝ) : ℝ := (x - 1 / 2) * Real.log x - x + Real.log (2 * Real.pi) / 2

/-- The expansion with the terms of index 1 to `N`. -/
noncomputable def fN (N : ℕ) (x : ℝ) : ℝ := f0 x + ∑ k ∈ Finset.range N, term (k + 1) x

theorem tendsto_f0 {x : ℝ} (hx : 0 < x) :
    Tendsto (fun n : ℕ => Real.log (Real.Gamma (x + (n + 1 : ℕ))) - f0 (x + (n + 1 : ℕ))) atTop (𝓝 0) := by
  have h1 := Real.BohrMollerup.tendsto_log_gamma hx
  have h2 : Tendsto (fun n : ℕ => Real.log (Stirling.stirlingSeq n)) atTop (𝓝 (Real.log (√Real.pi))) :=
    (Real.continuousAt_log (Real.sqrt_pos.2 Real.pi_pos).ne').tendsto.comp Stirling.tendsto_stirlingSeq_sqrt_pi
  have h3 : Tendsto (fun n : ℕ => (n : ℝ) * Real.log (1 + (x + 1) / n)) atTop (𝓝 (x + 1)) :=
    (Real.tendsto_mul_log_one_add_div_atTop (x + 1)).comp tendsto_natCast_atTop_atTop
  have h4 : Tendsto (fun n : ℕ => Real.log (1 + (x + 1) / n)) atTop (𝓝 0) := by
    have : Tendsto (fun n : ℕ => 1 + (x + 1) / (n : ℝ)) atTop (𝓝 (1 + 0)) :=
      (tendsto_const_div_atTop_nhds_zero_nat (x + 1)).const_add 1
    rw [add_zero] at this
    have h := (Real.continuousAt_log one_ne_zero).tendsto.comp this
    rwa [Real.log_one] at h
  have h5 := ((h1.const_sub (Real.log (Real.Gamma x))).add (h2.sub_const (Real.log (√Real.pi)))).add
    ((h3.const_sub (x + 1)).sub (h4.const_mul (x + 1 / 2)))
  rw [sub_self, sub_self, sub_self, mul_zero, sub_zero, add_zero, add_zero] at h5
  refine h5.congr' ?_
  filter_upwards [eventually_gt_atTop 0] with n hn
  have n0 : (0 : ℝ) < n := Nat.cast_pos.2 hn
  have g1 : Real.log (Real.Gamma (x + (n + 1 : ℕ))) = Real.log (Real.Gamma x) + ∑ m ∈ Finset.range (n + 1), Real.log (x + m) := by
    refine Real.BohrMollerup.f_add_nat_eq (f := Real.log ∘ Real.Gamma) (fun {y} hy => ?_) hx (n + 1)
    rw [Function.comp_apply, Real.Gamma_add_one hy.ne', Real.log_mul hy.ne' (Real.Gamma_pos_of_pos hy).ne', add_comm,
      Function.comp_apply]
  have g2 := Stirling.log_stirlingSeq_formula n
  rw [Real.log_mul (by norm_num) n0.ne', Real.log_div n0.ne' (Real.exp_pos 1).ne', Real.log_exp] at g2
  have g3 : Real.log (1 + (x + 1) / n) = Real.log (x + (n + 1 : ℕ)) - Real.log n := by
    rw [← Real.log_div (by positivity) n0.ne']; congr 1; push_cast; field_simp; ring
  have g4 : Real.log (√Real.pi) = Real.log Real.pi / 2 := Real.log_sqrt Real.pi_pos.le
  rw [g1, g2, g3, g4, f0, Real.log_mul (by norm_num) Real.pi_pos.ne', Real.BohrMollerup.logGammaSeq]
  push_cast
  ring

/-- Derivatives of `log (x + t)`: `hh j` is the derivative of order `j + 1`. -/
noncomputable def hh (x : ℝ) (j : ℕ) (t : ℝ) : ℝ := (-1) ^ j * (j.factorial : ℝ) / (x + t) ^ (j + 1)

theorem hasDerivAt_hh {x t : ℝ} (h : 0 < x + t) (j : ℕ) : HasDerivAt (hh x j) (hh x (j + 1) t) t := by
  have h1 : HasDerivAt (fun t => x + t) 1 t := (hasDerivAt_id t).const_add x
  have h2 := ((h1.pow (j + 1)).inv (pow_pos h _).ne').const_mul ((-1) ^ j * (j.factorial : ℝ))
  have e : hh x j = fun t => (-1) ^ j * (j.factorial : ℝ) * ((fun t => x + t) ^ (j + 1))⁻¹ t := by
    funext s; simp [hh, div_eq_mul_inv]
  rw [e]
  refine h2.congr_deriv ?_
  unfold hh
  have := h.ne'
  rw [Nat.factorial_succ]
  simp only [Pi.pow_apply]
  push_cast
  field_simp
  ring

/-- The function whose increment over the unit interval is the defect of the functional equation. -/
noncomputable def GG (x : ℝ) (M : ℕ) (t : ℝ) : ℝ :=
  ((x + t) * Real.log (x + t) - (x + t)) - bernoulliFun 1 t * Real.log (x + t) +
    ∑ j ∈ Finset.range M, (-1) ^ (j + 2) * (bernoulliFun (j + 2) t / ((j + 2).factorial : ℝ)) * hh x j t

theorem hasDerivAt_GG {x t : ℝ} (h : 0 < x + t) (M : ℕ) :
    HasDerivAt (GG x M) ((-1) ^ (M + 1) * (bernoulliFun (M + 1) t / ((M + 1).factorial : ℝ)) * hh x M t) t := by
  have h1 : HasDerivAt (fun t => x + t) 1 t := (hasDerivAt_id t).const_add x
  have h2 : HasDerivAt (fun t => Real.log (x + t)) (hh x 0 t) t := by
    have := h1.log h.ne'
    simpa [hh] using this
  induction M with
  | zero =>
    have h3 := ((h1.mul h2).sub h1).sub ((hasDerivAt_bernoulliFun 1 t).mul h2)
    have e : GG x 0 = fun t => ((x + t) * Real.log (x + t) - (x + t)) - bernoulliFun 1 t * Real.log (x + t) := by
      funext s; simp [GG]
    rw [e]
    refine h3.congr_deriv ?_
    simp [hh]
    field_simp
    ring
  | succ M ih =>
    have h3 := ((hasDerivAt_bernoulliFun (M + 2) t).div_const ((M + 2).factorial : ℝ)).const_mul ((-1 : ℝ) ^ (M + 2))
    have h4 := ih.add (h3.mul (hasDerivAt_hh h M))
    have e : GG x (M + 1) = fun t => GG x M t + (-1) ^ (M + 2) * (bernoulliFun (M + 2) t / ((M + 2).factorial : ℝ)) * hh x M t := by
      funext s; simp only [GG, Finset.sum_range_succ]; ring
    rw [e]
    refine h4.congr_deriv ?_
    rw [show M + 2 - 1 = M + 1 by omega, show M + 1 + 1 = M + 2 by omega, Nat.factorial_succ (M + 1)]
    have f1 : ((M + 1).factorial : ℝ) ≠ 0 := by positivity
    push_cast
    have f2 : ((M : ℝ) + 1 + 1) ≠ 0 := by positivity
    field_simp
    ring

theorem bernoulliFun_abs_le {k : ℕ} (hk : k ≠ 0) {t : ℝ} (h0 : 0 ≤ t) (h1 : t ≤ 1) :
    |bernoulliFun (2 * k) t| ≤ |(bernoulli (2 * k) : ℝ)| := by
  have a := hasSum_one_div_nat_pow_mul_cos hk (x := t) ⟨h0, h1⟩
  have b := hasSum_one_div_nat_pow_mul_cos hk (x := 0) ⟨le_rfl, zero_le_one⟩
  simp only [mul_zero, Real.cos_zero, mul_one] at b
  change HasSum _ (_ * bernoulliFun (2 * k) t) at a
  change HasSum _ (_ * bernoulliFun (2 * k) 0) at b
  have hb0 := bernoulliFun_eval_zero (2 * k)
  obtain ⟨c, hc⟩ : ∃ c : ℝ, c = (-1 : ℝ) ^ (k + 1) * (2 * Real.pi) ^ (2 * k) / 2 / ((2 * k).factorial : ℝ) := ⟨_, rfl⟩
  rw [← hc] at a b
  have c0 : c ≠ 0 := by
    have := Real.pi_pos
    rw [hc]; positivity
  have up : c * bernoulliFun (2 * k) t ≤ c * bernoulliFun (2 * k) 0 := by
    refine hasSum_le (fun n => ?_) a b
    exact mul_le_of_le_one_right (by positivity) (Real.cos_le_one _)
  have lo : -(c * bernoulliFun (2 * k) 0) ≤ c * bernoulliFun (2 * k) t := by
    refine hasSum_le (fun n => ?_) b.neg a
    have : (0 : ℝ) ≤ 1 / (n : ℝ) ^ (2 * k) := by positivity
    nlinarith [Real.neg_one_le_cos (2 * Real.pi * n * t)]
  have h : |c * bernoulliFun (2 * k) t| ≤ |c * bernoulliFun (2 * k) 0| := by
    refine (abs_le.2 ⟨lo, up⟩).trans (le_abs_self _)
  rw [abs_mul, abs_mul, hb0] at h
  exact le_of_mul_le_mul_left h (abs_pos.2 c0)

theorem GG_diff {x : ℝ} (hx : 0 < x) (N : ℕ) : GG x (2 * N + 1) 1 - GG x (2 * N + 1) 0 = fN (N + 1) (x + 1) - fN (N + 1) x - Real.log x := by
  have hs : ∀ N : ℕ, (∑ j ∈ Finset.range (2 * N + 1), (-1 : ℝ) ^ (j + 2) * (bernoulliFun (j + 2) 1 / ((j + 2).factorial : ℝ)) * hh x j 1) -
      (∑ j ∈ Finset.range (2 * N + 1), (-1 : ℝ) ^ (j + 2) * (bernoulliFun (j + 2) 0 / ((j + 2).factorial : ℝ)) * hh x j 0) =
      ∑ k ∈ Finset.range (N + 1), (term (k + 1) (x + 1) - term (k + 1) x) := by
    have one : ∀ k : ℕ, (-1 : ℝ) ^ (2 * k + 2) * (bernoulliFun (2 * k + 2) 1 / ((2 * k + 2).factorial : ℝ)) * hh x (2 * k) 1 -
        (-1 : ℝ) ^ (2 * k + 2) * (bernoulliFun (2 * k + 2) 0 / ((2 * k + 2).factorial : ℝ)) * hh x (2 * k) 0 =
        term (k + 1) (x + 1) - term (k + 1) x := by
      intro k
      rw [bernoulliFun_endpoints_eq_of_ne_one (by omega), bernoulliFun_eval_zero]
      unfold hh term
      have e1 : (-1 : ℝ) ^ (2 * k + 2) = 1 := by rw [pow_add, pow_mul]; norm_num
      have e2 : (-1 : ℝ) ^ (2 * k) = 1 := by rw [pow_mul]; norm_num
      rw [e1, e2, Nat.factorial_succ, Nat.factorial_succ, show 2 * (k + 1) - 1 = 2 * k + 1 by omega, show 2 * (k + 1) = 2 * k + 2 by ring]
      have f1 : ((2 * k).factorial : ℝ) ≠ 0 := by positivity
      have f2 : (2 * (k : ℝ) + 1) ≠ 0 := by positivity
      have f3 : (2 * ((k : ℝ) + 1)) ≠ 0 := by positivity
      have f4 : 2 * ((k : ℝ) + 1) - 1 ≠ 0 := by rw [show 2 * ((k : ℝ) + 1) - 1 = 2 * k + 1 by ring]; exact f2
      push_cast
      have f5 : (2 * (k : ℝ) + 1 + 1) ≠ 0 := by positivity
      have hx1 : x + 1 ≠ 0 := by positivity
      rw [add_zero, show 2 * ((k : ℝ) + 1) - 1 = 2 * k + 1 by ring, show 2 * ((k : ℝ) + 1) = 2 * k + 1 + 1 by ring]
      field_simp
    intro N
    induction N with
    | zero =>
      simpa using one 0
    | succ N ih =>
      rw [show 2 * (N + 1) + 1 = 2 * N + 1 + 1 + 1 by ring, Finset.sum_range_succ, Finset.sum_range_succ, Finset.sum_range_succ _ (2 * N + 1 + 1),
        Finset.sum_range_succ _ (2 * N + 1), Finset.sum_range_succ _ (N + 1), ← ih, ← one (N + 1)]
      have b0 : bernoulliFun (2 * N + 1 + 2) 0 = 0 := by
        rw [bernoulliFun_eval_zero, bernoulli_eq_zero_of_odd (by exact ⟨N + 1, by ring⟩) (by omega), Rat.cast_zero]
      have b1 : bernoulliFun (2 * N + 1 + 2) 1 = 0 := by
        rw [bernoulliFun_endpoints_eq_of_ne_one (by omega), b0]
      rw [b0, b1, show 2 * (N + 1) + 2 = 2 * N + 1 + 1 + 2 by ring, show 2 * (N + 1) = 2 * N + 1 + 1 by ring]
      ring
  have h := hs N
  unfold GG
  rw [bernoulliFun_one, bernoulliFun_one, add_zero]
  rw [Finset.sum_sub_distrib] at h
  unfold fN f0
  linear_combination h

theorem defect_le {x : ℝ} (hx : 0 < x) (N : ℕ) :
    |fN (N + 1) (x + 1) - fN (N + 1) x - Real.log x| ≤ |term (N + 1) x| - |term (N + 1) (x + 1)| := by
  rw [← GG_diff hx]
  obtain ⟨B, hB⟩ : ∃ B : ℝ, B = |(bernoulli (2 * (N + 1)) : ℝ)| / ((2 * N + 2) * (2 * N + 1)) := ⟨_, rfl⟩
  have B0 : 0 ≤ B := by rw [hB]; positivity
  have ht : ∀ y : ℝ, 0 < y → |term (N + 1) y| = B / y ^ (2 * N + 1) := by
    intro y hy
    unfold term
    rw [abs_mul, abs_div, show 2 * (N + 1) - 1 = 2 * N + 1 by omega, hB]
    push_cast
    rw [abs_of_pos (show (0 : ℝ) < 2 * (N + 1) * (2 * (N + 1) - 1) by nlinarith [(Nat.cast_nonneg N : (0 : ℝ) ≤ N)]),
      abs_of_pos (show (0 : ℝ) < 1 / y ^ (2 * N + 1) by positivity)]
    rw [show (2 : ℝ) * (N + 1) - 1 = 2 * N + 1 by ring, show (2 : ℝ) * (N + 1) = 2 * N + 2 by ring]
    ring
  rw [ht x hx, ht (x + 1) (by linarith)]
  have hphi : ∀ t ∈ Set.Icc (0 : ℝ) 1, HasDerivAt (fun t => -(B / (x + t) ^ (2 * N + 1))) (|(bernoulli (2 * (N + 1)) : ℝ)| / ((2 * N + 2) * (x + t) ^ (2 * N + 2))) t := by
    intro t ht
    have hp : 0 < x + t := by linarith [ht.1]
    have h1 := (((hasDerivAt_hh hp (2 * N)).const_mul (B / ((2 * N).factorial : ℝ)))).neg
    have f1 : ((2 * N).factorial : ℝ) ≠ 0 := by positivity
    have e : (fun t => -(B / (x + t) ^ (2 * N + 1))) = fun t => -(B / ((2 * N).factorial : ℝ) * hh x (2 * N) t) := by
      funext s; unfold hh; rw [pow_mul]; norm_num; field_simp
    rw [e]
    refine h1.congr_deriv ?_
    unfold hh
    have e2 : (-1 : ℝ) ^ (2 * N + 1) = -1 := by rw [pow_succ, pow_mul]; norm_num
    rw [e2, Nat.factorial_succ, hB]
    push_cast
    field_simp
  have hd : ∀ t ∈ Set.Icc (0 : ℝ) 1, |(-1) ^ (2 * N + 1 + 1) * (bernoulliFun (2 * N + 1 + 1) t / ((2 * N + 1 + 1).factorial : ℝ)) * hh x (2 * N + 1) t| ≤
      |(bernoulli (2 * (N + 1)) : ℝ)| / ((2 * N + 2) * (x + t) ^ (2 * N + 2)) := by
    intro t ht
    have hp : 0 < x + t := by linarith [ht.1]
    have hb := bernoulliFun_abs_le (k := N + 1) (by omega) ht.1 ht.2
    unfold hh
    rw [abs_mul, abs_mul, abs_pow, abs_neg, abs_one, one_pow, one_mul, abs_div, abs_div, abs_mul, abs_pow, abs_neg, abs_one, one_pow, one_mul,
      abs_of_pos (show (0 : ℝ) < ((2 * N + 1).factorial : ℝ) by positivity), abs_of_pos (show (0 : ℝ) < ((2 * N + 1 + 1).factorial : ℝ) by positivity),
      abs_of_pos (pow_pos hp _), Nat.factorial_succ (2 * N + 1), show 2 * N + 1 + 1 = 2 * (N + 1) by ring]
    have f1 : (0 : ℝ) < ((2 * N + 1).factorial : ℝ) := by positivity
    push_cast
    rw [show |bernoulliFun (2 * (N + 1)) t| / (2 * ((N : ℝ) + 1) * ((2 * N + 1).factorial : ℝ)) * (((2 * N + 1).factorial : ℝ) / (x + t) ^ (2 * (N + 1))) =
      |bernoulliFun (2 * (N + 1)) t| / ((2 * N + 2) * (x + t) ^ (2 * N + 2)) by
        rw [show 2 * (N + 1) = 2 * N + 2 by ring]; field_simp]
    exact div_le_div_of_nonneg_right hb (by positivity)
  have hG : ∀ t ∈ Set.Icc (0 : ℝ) 1, HasDerivAt (GG x (2 * N + 1)) _ t := fun t ht => hasDerivAt_GG (x := x) (by linarith [ht.1]) (2 * N + 1)
  have m1 : MonotoneOn (fun t => -(B / (x + t) ^ (2 * N + 1)) - GG x (2 * N + 1) t) (Set.Icc 0 1) := by
    refine monotoneOn_of_hasDerivWithinAt_nonneg (convex_Icc 0 1) (fun t ht => (((hphi t ht).sub (hG t ht)).continuousAt).continuousWithinAt)
      (fun t ht => ((hphi t (interior_subset ht)).sub (hG t (interior_subset ht))).hasDerivWithinAt) (fun t ht => ?_)
    have := (abs_le.1 (hd t (interior_subset ht))).2
    linarith
  have m2 : MonotoneOn (fun t => -(B / (x + t) ^ (2 * N + 1)) + GG x (2 * N + 1) t) (Set.Icc 0 1) := by
    refine monotoneOn_of_hasDerivWithinAt_nonneg (convex_Icc 0 1) (fun t ht => (((hphi t ht).add (hG t ht)).continuousAt).continuousWithinAt)
      (fun t ht => ((hphi t (interior_subset ht)).add (hG t (interior_subset ht))).hasDerivWithinAt) (fun t ht => ?_)
    have := (abs_le.1 (hd t (interior_subset ht))).1
    linarith
  have k1 := m1 (Set.left_mem_Icc.2 zero_le_one) (Set.right_mem_Icc.2 zero_le_one) zero_le_one
  have k2 := m2 (Set.left_mem_Icc.2 zero_le_one) (Set.right_mem_Icc.2 zero_le_one) zero_le_one
  simp only [add_zero] at k1 k2
  rw [abs_le]
  constructor <;> linarith

theorem tendsto_term (k : ℕ) (x : ℝ) : Tendsto (fun n : ℕ => term (k + 1) (x + (n + 1 : ℕ))) atTop (𝓝 0) := by
  unfold term
  rw [← mul_zero]
  refine Tendsto.const_mul _ ?_
  have h : Tendsto (fun n : ℕ => x + ((n + 1 : ℕ) : ℝ)) atTop atTop := tendsto_atTop_add_const_left _ _
    (tendsto_natCast_atTop_atTop.comp (tendsto_add_atTop_nat 1))
  have h2 := ((tendsto_pow_atTop (α := ℝ) (n := 2 * (k + 1) - 1) (by omega)).comp h).inv_tendsto_atTop
  refine h2.congr (fun n => ?_)
  simp

/-- Remainder of the expansion after the terms of index 1 to `N`: at most the last of these. -/
theorem stirling {x : ℝ} (hx : 0 < x) {N : ℕ} (hN : 1 ≤ N) : |Real.log (Real.Gamma x) - fN N x| ≤ |term N x| := by
  obtain ⟨N, rfl⟩ : ∃ M, N = M + 1 := ⟨N - 1, by omega⟩
  have step : ∀ n : ℕ, |Real.log (Real.Gamma x) - fN (N + 1) x| ≤
      |Real.log (Real.Gamma (x + n)) - fN (N + 1) (x + n)| + |term (N + 1) x| - |term (N + 1) (x + n)| := by
    intro n
    induction n with
    | zero => simp
    | succ n ih =>
      have hp : 0 < x + n := by positivity
      have hd := defect_le hp N
      rw [add_assoc] at hd
      have e : Real.log (Real.Gamma (x + (n + 1))) = Real.log (Real.Gamma (x + n)) + Real.log (x + n) := by
        rw [← add_assoc, Real.Gamma_add_one hp.ne', Real.log_mul hp.ne' (Real.Gamma_pos_of_pos hp).ne', add_comm]
      push_cast
      rw [e]
      have h3 := abs_sub_abs_le_abs_sub (Real.log (Real.Gamma (x + n)) - fN (N + 1) (x + n))
        (Real.log (Real.Gamma (x + n)) + Real.log (x + n) - fN (N + 1) (x + (n + 1)))
      rw [show (Real.log (Real.Gamma (x + n)) - fN (N + 1) (x + n)) - (Real.log (Real.Gamma (x + n)) + Real.log (x + n) - fN (N + 1) (x + (n + 1))) =
        fN (N + 1) (x + (n + 1)) - fN (N + 1) (x + n) - Real.log (x + n) by ring] at h3
      linarith
  have lim : Tendsto (fun n : ℕ => |Real.log (Real.Gamma (x + (n + 1 : ℕ))) - fN (N + 1) (x + (n + 1 : ℕ))|) atTop (𝓝 0) := by
    have h1 := (tendsto_f0 hx).sub (tendsto_finsetSum (Finset.range (N + 1)) fun k _ => tendsto_term k x)
    rw [Finset.sum_const_zero, sub_zero] at h1
    have h2 := h1.abs
    rw [abs_zero] at h2
    refine h2.congr (fun n => ?_)
    unfold fN
    congr 1
    ring
  have lim2 := lim.add_const |term (N + 1) x|
  rw [zero_add] at lim2
  refine ge_of_tendsto lim2 (Eventually.of_forall fun n => ?_)
  have := step (n + 1)
  linarith [abs_nonneg (term (N + 1) (x + ((n + 1 : ℕ) : ℝ)))]

end EFX.Stir
