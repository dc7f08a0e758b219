import Verif.Lemmas.Borwein
import Verif.Lemmas.Eta
import Mathlib.Analysis.SpecialFunctions.Gamma.Beta
import Mathlib.Analysis.SpecialFunctions.Trigonometric.DerivHyp
/-! The accelerated alternating series for complex arguments with positive real part. -/

namespace EFX.Borw
open Finset Filter Topology

/-- Moments for complex exponents: a bound on the unit interval bounds the sum, up to the quotient of two gamma functions. -/
theorem moment_norm {s : ℂ} (hs : 0 < s.re) (n : ℕ) (p F : ℕ → ℝ) (h : ∀ x : ℝ, 0 ≤ x → x ≤ 1 → |∑ j ∈ range n, p j * x ^ j| ≤ ∑ j ∈ range n, F j * x ^ j) :
    ‖∑ j ∈ range n, (p j : ℂ) * (1 / ((j : ℂ) + 1) ^ s)‖ * ‖Complex.Gamma s‖ ≤ (∑ j ∈ range n, F j * (1 / ((j : ℝ) + 1) ^ s.re)) * Real.Gamma s.re := by
  have intR : ∀ j : ℕ, MeasureTheory.IntegrableOn (fun t : ℝ => t ^ (s.re - 1) * Real.exp (-(((j : ℝ) + 1) * t))) (Set.Ioi 0) := by
    intro j
    have := integrableOn_rpow_mul_exp_neg_mul_rpow (s := s.re - 1) (p := 1) (b := (j : ℝ) + 1) (by linarith) (by norm_num) (by positivity)
    exact this.congr_fun (fun t _ => by simp only [Real.rpow_one]; ring_nf) measurableSet_Ioi
  have nrm : ∀ (j : ℕ) (t : ℝ), t ∈ Set.Ioi (0 : ℝ) → ‖(t : ℂ) ^ (s - 1) * Complex.exp (-((((j : ℝ) + 1 : ℝ) : ℂ) * t))‖ = t ^ (s.re - 1) * Real.exp (-(((j : ℝ) + 1) * t)) := by
    intro j t ht
    rw [norm_mul, Complex.norm_cpow_eq_rpow_re_of_pos ht, Complex.norm_exp]
    norm_num
  have meas : ∀ j : ℕ, MeasureTheory.AEStronglyMeasurable (fun t : ℝ => (t : ℂ) ^ (s - 1) * Complex.exp (-((((j : ℝ) + 1 : ℝ) : ℂ) * t))) (MeasureTheory.volume.restrict (Set.Ioi 0)) := by
    intro j
    refine ContinuousOn.aestronglyMeasurable (fun t ht => ?_) measurableSet_Ioi
    refine ContinuousWithinAt.mul ?_ (by fun_prop)
    have h := continuousAt_cpow_const (a := (t : ℂ)) (b := s - 1) (Or.inl (by simpa using ht))
    exact (h.comp (f := fun t : ℝ => (t : ℂ)) Complex.continuous_ofReal.continuousAt).continuousWithinAt
  have int : ∀ j : ℕ, MeasureTheory.IntegrableOn (fun t : ℝ => (t : ℂ) ^ (s - 1) * Complex.exp (-((((j : ℝ) + 1 : ℝ) : ℂ) * t))) (Set.Ioi 0) := by
    intro j
    refine MeasureTheory.Integrable.mono' (intR j) (meas j) ?_
    refine (MeasureTheory.ae_restrict_iff' measurableSet_Ioi).2 (Filter.Eventually.of_forall fun t ht => (nrm j t ht).le)
  have valR : ∀ j : ℕ, ∫ t in Set.Ioi (0 : ℝ), t ^ (s.re - 1) * Real.exp (-(((j : ℝ) + 1) * t)) = 1 / ((j : ℝ) + 1) ^ s.re * Real.Gamma s.re := by
    intro j
    rw [Real.integral_rpow_mul_exp_neg_mul_Ioi hs (by positivity), Real.div_rpow (by norm_num) (by positivity), Real.one_rpow]
  have val : ∀ j : ℕ, ∫ t in Set.Ioi (0 : ℝ), (t : ℂ) ^ (s - 1) * Complex.exp (-((((j : ℝ) + 1 : ℝ) : ℂ) * t)) = 1 / ((j : ℂ) + 1) ^ s * Complex.Gamma s := by
    intro j
    rw [Complex.integral_cpow_mul_exp_neg_mul_Ioi hs (by positivity : (0 : ℝ) < (j : ℝ) + 1)]
    congr 1
    rw [one_div, one_div, Complex.inv_cpow]
    · push_cast; rfl
    · rw [Complex.arg_ofReal_of_nonneg (by positivity)]; exact Real.pi_pos.ne
  have e : (∑ j ∈ range n, (p j : ℂ) * (1 / ((j : ℂ) + 1) ^ s)) * Complex.Gamma s =
      ∫ t in Set.Ioi (0 : ℝ), ∑ j ∈ range n, (p j : ℂ) * ((t : ℂ) ^ (s - 1) * Complex.exp (-((((j : ℝ) + 1 : ℝ) : ℂ) * t))) := by
    rw [MeasureTheory.integral_finsetSum _ fun j _ => (int j).const_mul _, sum_mul]
    refine sum_congr rfl fun j _ => ?_
    rw [MeasureTheory.integral_const_mul, val, mul_assoc]
  have eR : (∑ j ∈ range n, F j * (1 / ((j : ℝ) + 1) ^ s.re)) * Real.Gamma s.re =
      ∫ t in Set.Ioi (0 : ℝ), ∑ j ∈ range n, F j * (t ^ (s.re - 1) * Real.exp (-(((j : ℝ) + 1) * t))) := by
    rw [MeasureTheory.integral_finsetSum _ fun j _ => (intR j).const_mul _, sum_mul]
    refine sum_congr rfl fun j _ => ?_
    rw [MeasureTheory.integral_const_mul, valR, mul_assoc]
  rw [← norm_mul, e, eR]
  refine MeasureTheory.norm_integral_le_of_norm_le (MeasureTheory.integrable_finsetSum _ fun j _ => (intR j).const_mul _) ?_
  refine (MeasureTheory.ae_restrict_iff' measurableSet_Ioi).2 (Filter.Eventually.of_forall fun t ht => ?_)
  have t0 : 0 < t := ht
  have c1 : ∑ j ∈ range n, (p j : ℂ) * ((t : ℂ) ^ (s - 1) * Complex.exp (-((((j : ℝ) + 1 : ℝ) : ℂ) * t))) =
      ((t : ℂ) ^ (s - 1) * Complex.exp (-t)) * ((∑ j ∈ range n, p j * Real.exp (-t) ^ j : ℝ) : ℂ) := by
    push_cast
    rw [mul_sum]
    refine sum_congr rfl fun j _ => ?_
    rw [← Complex.exp_nat_mul, show -(((j : ℂ) + 1) * t) = -t + j * -t by ring, Complex.exp_add]
    ring
  have c2 : ∑ j ∈ range n, F j * (t ^ (s.re - 1) * Real.exp (-(((j : ℝ) + 1) * t))) =
      (t ^ (s.re - 1) * Real.exp (-t)) * ∑ j ∈ range n, F j * Real.exp (-t) ^ j := by
    rw [mul_sum]
    refine sum_congr rfl fun j _ => ?_
    rw [← Real.exp_nat_mul, show -(((j : ℝ) + 1) * t) = -t + j * -t by ring, Real.exp_add]
    ring
  rw [c1, c2, norm_mul, Complex.norm_real, Real.norm_eq_abs]
  have n0 := nrm 0 t ht
  norm_num at n0
  rw [norm_mul, n0]
  exact mul_le_mul_of_nonneg_left (h _ (Real.exp_pos _).le (Real.exp_le_one_iff.2 (by linarith))) (mul_nonneg (Real.rpow_nonneg t0.le _) (Real.exp_pos _).le)

/-- `alt_bound` for complex exponents. -/
theorem alt_boundC {s : ℂ} (hs : 0 < s.re) (c : ℕ → ℝ) {N M : ℕ} (hM : N ≤ M) {b : ℝ} (b0 : 0 ≤ b) (w0 : 0 ≤ tail c N 0)
    (hq : ∀ x : ℝ, 0 ≤ x → x ≤ 1 → |∑ k ∈ range (N + 1), c k * (-x) ^ k| ≤ b) :
    ‖(tail c N 0 : ℂ) * ∑ j ∈ range M, (-1) ^ j * (1 / ((j : ℂ) + 1) ^ s) - ∑ j ∈ range N, (-1) ^ j * (tail c N (j + 1) : ℂ) * (1 / ((j : ℂ) + 1) ^ s)‖ *
      ‖Complex.Gamma s‖ ≤
      (b * (∑ j ∈ range M, (-1) ^ j * (1 / ((j : ℝ) + 1) ^ s.re)) + (b + tail c N 0) * (1 / ((M : ℝ) + 1) ^ s.re)) * Real.Gamma s.re := by
  obtain ⟨D, hD⟩ : ∃ D : ℕ → ℝ, D = fun j => (if j < M then tail c N 0 * (-1) ^ j else 0) - (if j < N then (-1) ^ j * tail c N (j + 1) else 0) := ⟨_, rfl⟩
  obtain ⟨F, hF⟩ : ∃ F : ℕ → ℝ, F = fun j => (if j < M then b * (-1) ^ j else 0) + (if j = M then b + tail c N 0 else 0) := ⟨_, rfl⟩
  have sel : ∀ (K : ℕ) (f g : ℕ → ℝ), K ≤ M + 1 → ∑ j ∈ range (M + 1), (if j < K then f j else 0) * g j = ∑ j ∈ range K, f j * g j := by
    intro K f g hK
    rw [← sum_subset (range_subset_range.2 hK) (fun j _ hj => by rw [if_neg (by simpa using hj), zero_mul])]
    exact sum_congr rfl fun j hj => by rw [if_pos (mem_range.1 hj)]
  have selC : ∀ (K : ℕ) (f : ℕ → ℝ) (g : ℕ → ℂ), K ≤ M + 1 → ∑ j ∈ range (M + 1), ((if j < K then f j else 0 : ℝ) : ℂ) * g j = ∑ j ∈ range K, (f j : ℂ) * g j := by
    intro K f g hK
    rw [← sum_subset (range_subset_range.2 hK) (fun j _ hj => by rw [if_neg (by simpa using hj), Complex.ofReal_zero, zero_mul])]
    exact sum_congr rfl fun j hj => by rw [if_pos (mem_range.1 hj)]
  have sD : ∀ g : ℕ → ℝ, ∑ j ∈ range (M + 1), D j * g j = tail c N 0 * ∑ j ∈ range M, (-1) ^ j * g j - ∑ j ∈ range N, (-1) ^ j * tail c N (j + 1) * g j := by
    intro g
    simp only [hD, sub_mul, sum_sub_distrib]
    rw [sel M _ g (by omega), sel N _ g (by omega), mul_sum]
    congr 1
    exact sum_congr rfl fun j _ => by ring
  have sDC : ∀ g : ℕ → ℂ, ∑ j ∈ range (M + 1), (D j : ℂ) * g j = (tail c N 0 : ℂ) * ∑ j ∈ range M, (-1) ^ j * g j - ∑ j ∈ range N, (-1) ^ j * (tail c N (j + 1) : ℂ) * g j := by
    intro g
    simp only [hD, Complex.ofReal_sub, sub_mul, sum_sub_distrib]
    rw [selC M _ g (by omega), selC N _ g (by omega), mul_sum]
    congr 1
    · exact sum_congr rfl fun j _ => by push_cast; ring
    · exact sum_congr rfl fun j _ => by push_cast; ring
  have sF : ∀ g : ℕ → ℝ, ∑ j ∈ range (M + 1), F j * g j = b * ∑ j ∈ range M, (-1) ^ j * g j + (b + tail c N 0) * g M := by
    intro g
    simp only [hF, add_mul, sum_add_distrib]
    rw [sel M _ g (by omega), mul_sum]
    congr 1
    · exact sum_congr rfl fun j _ => by ring
    · rw [sum_range_succ, if_pos rfl, sum_eq_zero fun j hj => by rw [if_neg (by have := mem_range.1 hj; omega), zero_mul], zero_add]; ring
  have pt : ∀ x : ℝ, 0 ≤ x → x ≤ 1 → |∑ j ∈ range (M + 1), D j * x ^ j| ≤ ∑ j ∈ range (M + 1), F j * x ^ j := by
    intro x h0 h1
    rw [sD, sF]
    have g1 : ∑ j ∈ range M, (-1) ^ j * x ^ j = ∑ j ∈ range M, (-x) ^ j := sum_congr rfl fun j _ => by rw [← mul_pow]; ring
    have g2 : ∑ j ∈ range N, (-1) ^ j * tail c N (j + 1) * x ^ j = ∑ j ∈ range N, tail c N (j + 1) * (-x) ^ j :=
      sum_congr rfl fun j _ => by rw [neg_pow x]; ring
    rw [g1, g2]
    have e1 := tail_sum c (-x) N
    have e2 := mul_neg_geom_sum (-x) M
    have q := hq x h0 h1
    have xm : |(-x) ^ M| = x ^ M := by rw [abs_pow, abs_neg, abs_of_nonneg h0]
    have xM : 0 ≤ x ^ M := by positivity
    generalize (∑ j ∈ range M, (-x) ^ j) = E at *
    generalize (∑ j ∈ range N, tail c N (j + 1) * (-x) ^ j) = T at *
    generalize (∑ k ∈ range (N + 1), c k * (-x) ^ k) = Q at *
    generalize tail c N 0 = w at *
    generalize (-x) ^ M = y at *
    generalize x ^ M = z at *
    have p1 : 0 < 1 - -x := by linarith
    have l : (1 - -x) * |w * E - T| ≤ (1 - -x) * (b * E + (b + w) * z) := by
      rw [← abs_of_pos p1, ← abs_mul, abs_of_pos p1]
      rw [show (1 - -x) * (w * E - T) = Q - w * y by linear_combination w * e2 - e1]
      have a1 := abs_sub Q (w * y)
      rw [abs_mul, abs_of_nonneg w0, xm] at a1
      have yz := (abs_le.1 xm.le)
      have : (1 - -x) * (b * E + (b + w) * z) = b * (1 - y) + (1 + x) * (b + w) * z := by linear_combination b * e2
      rw [this]
      have : b * y ≤ b * z := mul_le_mul_of_nonneg_left yz.2 b0
      have : 0 ≤ x * ((b + w) * z) := by positivity
      nlinarith
    exact le_of_mul_le_mul_left l p1
  have := moment_norm hs (M + 1) D F pt
  rwa [sDC (fun j => 1 / ((j : ℂ) + 1) ^ s), sF (fun j => 1 / ((j : ℝ) + 1) ^ s.re)] at this

/-- The gamma function on the line through one: its modulus. -/
theorem gamma_line (t : ℝ) : 1 ≤ ‖Complex.Gamma (1 + t * Complex.I)‖ * Real.exp (Real.pi * |t| / 2) := by
  rcases eq_or_ne t 0 with rfl | ht
  · simp
  have tI : (t : ℂ) * Complex.I ≠ 0 := mul_ne_zero (by exact_mod_cast ht) Complex.I_ne_zero
  have h1 := Complex.Gamma_add_one _ tI
  have h2 := Complex.Gamma_mul_Gamma_one_sub ((t : ℂ) * Complex.I)
  have cj : Complex.Gamma (1 - t * Complex.I) = (starRingEnd ℂ) (Complex.Gamma (1 + t * Complex.I)) := by
    rw [← Complex.Gamma_conj]; simp [sub_eq_add_neg]
  have key : ‖Complex.Gamma (1 + t * Complex.I)‖ ^ 2 * |Real.sinh (Real.pi * t)| = Real.pi * |t| := by
    have e : Complex.Gamma (1 + t * Complex.I) * Complex.Gamma (1 - t * Complex.I) = (t * Complex.I) * (Real.pi / Complex.sin (Real.pi * (t * Complex.I))) := by
      rw [add_comm, h1, mul_assoc, h2]
    have sn : Complex.sin (Real.pi * (t * Complex.I)) = (Real.sinh (Real.pi * t) : ℂ) * Complex.I := by
      rw [← mul_assoc, Complex.sin_mul_I]; push_cast; rfl
    have ne : Real.sinh (Real.pi * t) ≠ 0 := by
      rw [← Real.sinh_zero]; exact Real.sinh_injective.ne (mul_ne_zero Real.pi_pos.ne' ht)
    have := congrArg norm e
    rw [cj, norm_mul, RCLike.norm_conj, sn, norm_mul, norm_mul, norm_div, norm_mul, Complex.norm_I, Complex.norm_real, Complex.norm_real, Complex.norm_real,
      Real.norm_eq_abs, Real.norm_eq_abs, Real.norm_eq_abs, abs_of_pos Real.pi_pos] at this
    have np : 0 < |Real.sinh (Real.pi * t)| := abs_pos.2 ne
    rw [pow_two, this]
    field_simp
  have as : |Real.sinh (Real.pi * t)| = Real.sinh (Real.pi * |t|) := by
    rw [Real.abs_sinh, abs_mul, abs_of_pos Real.pi_pos]
  rw [as] at key
  have p : 0 < Real.pi * |t| := mul_pos Real.pi_pos (abs_pos.2 ht)
  have e2 : Real.exp (Real.pi * |t|) = Real.exp (Real.pi * |t| / 2) ^ 2 := by rw [← Real.exp_nat_mul]; push_cast; ring_nf
  generalize Real.pi * |t| = x at *
  have sh : Real.sinh x ≤ x * Real.exp x := by
    rw [Real.sinh_eq]
    have a := Real.add_one_le_exp (-2 * x)
    have b : Real.exp (-x) = Real.exp x * Real.exp (-2 * x) := by rw [← Real.exp_add]; ring_nf
    have ep := Real.exp_pos x
    rw [b]
    nlinarith
  rw [e2] at sh
  have y0 : 0 < Real.exp (x / 2) := Real.exp_pos _
  have g0 : 0 ≤ ‖Complex.Gamma (1 + t * Complex.I)‖ := norm_nonneg _
  generalize Real.exp (x / 2) = y at *
  generalize ‖Complex.Gamma (1 + t * Complex.I)‖ = g at *
  have m := mul_le_mul_of_nonneg_left sh (sq_nonneg g)
  rw [key] at m
  have : 1 ≤ (g * y) ^ 2 := by
    refine le_of_mul_le_mul_left ?_ p
    rw [mul_one]; linarith
  exact (one_le_sq_iff₀ (by positivity)).1 this

/-- How much smaller the gamma function is off the real line. -/
theorem gamma_ratio {s : ℂ} (hs : 0 < s.re) : Real.Gamma s.re ≤ ‖s‖ / s.re * Real.exp (Real.pi * |s.im| / 2) * ‖Complex.Gamma s‖ := by
  have key : Real.Gamma s.re * ‖Complex.Gamma (1 + s.im * Complex.I)‖ ≤ ‖s‖ / s.re * ‖Complex.Gamma s‖ * Real.Gamma 1 := by
    refine le_of_tendsto_of_tendsto ((Real.GammaSeq_tendsto_Gamma s.re).mul (Complex.GammaSeq_tendsto_Gamma (1 + s.im * Complex.I)).norm)
      (((Complex.GammaSeq_tendsto_Gamma s).norm.const_mul (‖s‖ / s.re)).mul (Real.GammaSeq_tendsto_Gamma 1)) (Filter.eventually_atTop.2 ⟨1, fun n hn => ?_⟩)
    have n0 : (0 : ℝ) < n := by exact_mod_cast hn
    have sn : s ≠ 0 := by rintro rfl; simp at hs
    simp only [Real.GammaSeq, Complex.GammaSeq, norm_div, norm_mul, norm_prod]
    rw [show ((n : ℂ)) = ((n : ℝ) : ℂ) by push_cast; rfl, Complex.norm_cpow_eq_rpow_re_of_pos n0, Complex.norm_cpow_eq_rpow_re_of_pos n0]
    simp only [Complex.norm_natCast]
    have r1 : (1 + (s.im : ℂ) * Complex.I).re = 1 := by simp
    rw [r1]
    have fac : ∀ j : ℕ, ‖s + ((j + 1 : ℕ) : ℂ)‖ * (1 + (j : ℝ)) ≤ (s.re + ((j + 1 : ℕ) : ℝ)) * ‖1 + s.im * Complex.I + (j : ℂ)‖ := by
      intro j
      have a1 : ‖s + ((j + 1 : ℕ) : ℂ)‖ ^ 2 = (s.re + (j + 1)) ^ 2 + s.im ^ 2 := by
        rw [← Complex.normSq_eq_norm_sq, Complex.normSq_apply]; simp; ring
      have a2 : ‖1 + s.im * Complex.I + (j : ℂ)‖ ^ 2 = (1 + (j : ℝ)) ^ 2 + s.im ^ 2 := by
        rw [← Complex.normSq_eq_norm_sq, Complex.normSq_apply]; simp; ring
      have j0 : (0 : ℝ) ≤ j := Nat.cast_nonneg j
      refine (sq_le_sq₀ (by positivity) (by push_cast; positivity)).1 ?_
      rw [mul_pow, mul_pow, a1, a2]
      push_cast
      have : (1 + (j : ℝ)) ^ 2 ≤ (s.re + (j + 1)) ^ 2 := by
        apply pow_le_pow_left₀ <;> linarith
      nlinarith [mul_le_mul_of_nonneg_left this (sq_nonneg s.im)]
    have pr : ∀ m : ℕ, (∏ j ∈ range m, ‖s + ((j + 1 : ℕ) : ℂ)‖) * ∏ j ∈ range m, (1 + (j : ℝ)) ≤ (∏ j ∈ range m, (s.re + ((j + 1 : ℕ) : ℝ))) * ∏ j ∈ range m, ‖1 + s.im * Complex.I + (j : ℂ)‖ := by
      intro m
      rw [← prod_mul_distrib, ← prod_mul_distrib]
      exact prod_le_prod (fun j _ => by positivity) fun j _ => fac j
    have la : (1 + (n : ℝ)) ≤ ‖1 + s.im * Complex.I + (n : ℂ)‖ := by
      refine le_trans ?_ (Complex.abs_re_le_norm _)
      simp
      exact le_abs_self _
    have P1 : 0 < ∏ j ∈ range (n + 1), (s.re + (j : ℝ)) := prod_pos fun j _ => by positivity
    have P2 : 0 < ∏ j ∈ range (n + 1), ‖1 + s.im * Complex.I + (j : ℂ)‖ := prod_pos fun j _ => by
      refine norm_pos_iff.2 fun h => ?_
      have := congrArg Complex.re h
      simp at this
      have j0 : (0 : ℝ) ≤ j := Nat.cast_nonneg j
      linarith
    have P3 : 0 < ∏ j ∈ range (n + 1), ‖s + (j : ℂ)‖ := prod_pos fun j _ => by
      refine norm_pos_iff.2 fun h => ?_
      have := congrArg Complex.re h
      simp at this
      have j0 : (0 : ℝ) ≤ j := Nat.cast_nonneg j
      linarith
    have P4 : 0 < ∏ j ∈ range (n + 1), (1 + (j : ℝ)) := prod_pos fun j _ => by positivity
    have main : (∏ j ∈ range (n + 1), ‖s + (j : ℂ)‖) * ∏ j ∈ range (n + 1), (1 + (j : ℝ)) ≤
        ‖s‖ / s.re * ((∏ j ∈ range (n + 1), (s.re + (j : ℝ))) * ∏ j ∈ range (n + 1), ‖1 + s.im * Complex.I + (j : ℂ)‖) := by
      rw [prod_range_succ' (fun j => ‖s + (j : ℂ)‖), prod_range_succ' (fun j => s.re + (j : ℝ)), prod_range_succ (fun j => 1 + (j : ℝ)), prod_range_succ (fun j => ‖1 + s.im * Complex.I + (j : ℂ)‖)]
      simp only [Nat.cast_zero, add_zero]
      have h := mul_le_mul (pr n) la (by positivity) (mul_nonneg (prod_nonneg fun j _ => by positivity) (prod_nonneg fun j _ => norm_nonneg _))
      have h2 := mul_le_mul_of_nonneg_left h (norm_nonneg s)
      refine le_trans (le_of_eq ?_) (h2.trans (le_of_eq ?_))
      · ring
      · field_simp
    generalize (∏ j ∈ range (n + 1), ‖s + (j : ℂ)‖) = A at *
    generalize (∏ j ∈ range (n + 1), (1 + (j : ℝ))) = B at *
    generalize (∏ j ∈ range (n + 1), (s.re + (j : ℝ))) = C at *
    generalize (∏ j ∈ range (n + 1), ‖1 + s.im * Complex.I + (j : ℂ)‖) = D at *
    have q0 : 0 ≤ (n : ℝ) ^ s.re * n.factorial * ((n : ℝ) ^ (1 : ℝ) * n.factorial) := by positivity
    generalize (n : ℝ) ^ s.re * n.factorial = U at *
    generalize (n : ℝ) ^ (1 : ℝ) * n.factorial = W at *
    rw [div_mul_div_comm, mul_assoc (‖s‖ / s.re), div_mul_div_comm, ← mul_div_assoc, div_le_div_iff₀ (by positivity) (by positivity)]
    nlinarith [mul_le_mul_of_nonneg_left main q0]
  rw [Real.Gamma_one, mul_one] at key
  have l := gamma_line s.im
  have G := Real.Gamma_pos_of_pos hs
  have g1 : Real.Gamma s.re ≤ Real.Gamma s.re * (‖Complex.Gamma (1 + s.im * Complex.I)‖ * Real.exp (Real.pi * |s.im| / 2)) := le_mul_of_one_le_right G.le l
  have := mul_le_mul_of_nonneg_right key (Real.exp_pos (Real.pi * |s.im| / 2)).le
  linarith

/-- Partial sums of even length tend to `(1 - 2^(1-s)) ζ(s)`. -/
theorem eta_even {s : ℂ} (hs : 0 < s.re) (h1 : s ≠ 1) :
    Tendsto (fun m : ℕ => ∑ j ∈ range (2 * m), (-1) ^ j * (1 / ((j : ℂ) + 1) ^ s)) atTop (𝓝 ((1 - 2 ^ (1 - s)) * riemannZeta s)) := by
  have sm : Summable fun n => pair n s :=
    Summable.of_norm_bounded (summable_odd hs ‖s‖) fun n => by simpa using pair_bound n hs
  have lim := sm.hasSum.tendsto_sum_nat
  rw [eta_zeta hs h1] at lim
  refine lim.congr fun m => ?_
  induction m with
  | zero => simp
  | succ m ih =>
    rw [sum_range_succ, ih, show 2 * (m + 1) = 2 * m + 1 + 1 by ring, sum_range_succ, sum_range_succ]
    unfold pair
    rw [pow_succ, pow_mul]
    push_cast
    rw [show (2 * (m : ℂ) + 1 + 1) = 2 * m + 2 by ring]
    ring

/-- The accelerated series at complex arguments: error of the alternating sum. -/
theorem alt_errorC {s : ℂ} (hs : 0 < s.re) (h1 : s ≠ 1) {N : ℕ} (hN : 1 ≤ N) :
    ‖(∑ j ∈ range N, (-1) ^ j * (tail (coef N) N (j + 1) : ℂ) * (1 / ((j : ℂ) + 1) ^ s)) / (tail (coef N) N 0 : ℂ) - (1 - 2 ^ (1 - s)) * riemannZeta s‖ ≤
      (N + 1) / (291 / 50) ^ (N - 1) * (‖s‖ / s.re * Real.exp (Real.pi * |s.im| / 2)) := by
  obtain ⟨n, rfl⟩ : ∃ n, N = n + 1 := ⟨N - 1, by omega⟩
  obtain ⟨v1, -⟩ := V_neg_one n
  have N0 : (1 : ℝ) ≤ ((n + 1 : ℕ) : ℝ) := by exact_mod_cast hN
  have p5 : (0 : ℝ) < (291 / 50) ^ n := by positivity
  have vp : 0 < V n (-1) := lt_of_lt_of_le p5 v1
  have w0 : 0 < tail (coef (n + 1)) (n + 1) 0 := by rw [tail_coef]; positivity
  have hq : ∀ x : ℝ, 0 ≤ x → x ≤ 1 → |∑ k ∈ range (n + 1 + 1), coef (n + 1) k * (-x) ^ k| ≤ 1 / ((n + 1 : ℕ) : ℝ) ^ 2 + 2 := by
    intro x h0 h1
    rw [coef_poly]
    have a := abs_sub (1 / ((n + 1 : ℕ) : ℝ) ^ 2) (2 * x / ((n + 1 : ℕ) : ℝ) * V n x)
    rw [abs_mul, abs_of_pos (show 0 < 1 / ((n + 1 : ℕ) : ℝ) ^ 2 by positivity), abs_of_nonneg (show 0 ≤ 2 * x / ((n + 1 : ℕ) : ℝ) by positivity)] at a
    have b := V_le n h0 h1
    have : 2 * x / ((n + 1 : ℕ) : ℝ) * |V n x| ≤ 2 * x / ((n + 1 : ℕ) : ℝ) * ((n + 1 : ℕ) : ℝ) := by
      apply mul_le_mul_of_nonneg_left _ (by positivity)
      push_cast; exact b
    rw [div_mul_cancel₀ _ (by positivity)] at this
    linarith
  have η1 : ∀ M, ∑ j ∈ range M, (-1) ^ j * (1 / ((j : ℝ) + 1) ^ s.re) ≤ 1 := by
    have anti : Antitone fun j : ℕ => (1 : ℝ) / ((j : ℝ) + 1) ^ s.re := by
      intro a b hab
      simp only
      gcongr
    have pair2 : ∀ m : ℕ, ∑ j ∈ range (2 * m + 1), (-1) ^ j * ((1 : ℝ) / ((j : ℝ) + 1) ^ s.re) ≤ 1 ∧ ∑ j ∈ range (2 * m), (-1) ^ j * ((1 : ℝ) / ((j : ℝ) + 1) ^ s.re) ≤ 1 := by
      intro m
      induction m with
      | zero => simp
      | succ m ih =>
        have s1 := anti (show 2 * m + 1 ≤ 2 * m + 1 + 1 by omega)
        have p1 : (-1 : ℝ) ^ (2 * m + 1) = -1 := by rw [pow_succ, pow_mul]; norm_num
        have p2 : (-1 : ℝ) ^ (2 * m + 1 + 1) = 1 := by rw [pow_succ, p1]; norm_num
        have q : (0 : ℝ) ≤ 1 / (((2 * m + 1 : ℕ) : ℝ) + 1) ^ s.re := by positivity
        rw [show 2 * (m + 1) = 2 * m + 1 + 1 by ring, sum_range_succ _ (2 * m + 1 + 1), sum_range_succ _ (2 * m + 1), p1, p2]
        simp only at s1
        constructor
        · linarith [ih.1]
        · linarith [ih.1]
    intro M
    rcases Nat.even_or_odd' M with ⟨m, rfl | rfl⟩
    · exact (pair2 m).2
    · exact (pair2 m).1
  obtain ⟨S, hS⟩ : ∃ S : ℂ, S = ∑ j ∈ range (n + 1), (-1) ^ j * (tail (coef (n + 1)) (n + 1) (j + 1) : ℂ) * (1 / ((j : ℂ) + 1) ^ s) := ⟨_, rfl⟩
  obtain ⟨η, hη⟩ : ∃ η : ℂ, η = (1 - 2 ^ (1 - s)) * riemannZeta s := ⟨_, rfl⟩
  obtain ⟨w, hw⟩ : ∃ w : ℝ, w = tail (coef (n + 1)) (n + 1) 0 := ⟨_, rfl⟩
  have ev := eta_even hs h1
  rw [← hη] at ev
  have b0 : 0 ≤ 1 / ((n + 1 : ℕ) : ℝ) ^ 2 + 2 := by positivity
  have lim : ‖(w : ℂ) * η - S‖ * ‖Complex.Gamma s‖ ≤ (1 / ((n + 1 : ℕ) : ℝ) ^ 2 + 2) * Real.Gamma s.re := by
    have z : Tendsto (fun m : ℕ => (1 : ℝ) / (((2 * m : ℕ) : ℝ) + 1) ^ s.re) atTop (𝓝 0) := by
      have h1 : Tendsto (fun M : ℕ => ((M : ℝ) + 1) ^ s.re) atTop atTop :=
        (tendsto_rpow_atTop hs).comp (tendsto_atTop_add_const_right _ _ tendsto_natCast_atTop_atTop)
      simp only [one_div]
      exact (h1.comp (tendsto_id.const_mul_atTop' (by norm_num : 0 < 2))).inv_tendsto_atTop
    have l1 : Tendsto (fun m : ℕ => ‖(w : ℂ) * (∑ j ∈ range (2 * m), (-1) ^ j * (1 / ((j : ℂ) + 1) ^ s)) - S‖ * ‖Complex.Gamma s‖) atTop
        (𝓝 (‖(w : ℂ) * η - S‖ * ‖Complex.Gamma s‖)) := (((ev.const_mul _).sub_const _).norm).mul_const _
    have l2 : Tendsto (fun m : ℕ => ((1 / ((n + 1 : ℕ) : ℝ) ^ 2 + 2) * 1 + ((1 / ((n + 1 : ℕ) : ℝ) ^ 2 + 2) + w) * (1 / (((2 * m : ℕ) : ℝ) + 1) ^ s.re)) * Real.Gamma s.re) atTop
        (𝓝 (((1 / ((n + 1 : ℕ) : ℝ) ^ 2 + 2) * 1 + ((1 / ((n + 1 : ℕ) : ℝ) ^ 2 + 2) + w) * 0) * Real.Gamma s.re)) :=
      (tendsto_const_nhds.add (z.const_mul _)).mul_const _
    rw [mul_zero, add_zero, mul_one] at l2
    refine le_of_tendsto_of_tendsto l1 l2 (Filter.eventually_atTop.2 ⟨n + 1, fun m hm => ?_⟩)
    have h := alt_boundC hs (coef (n + 1)) (M := 2 * m) (by omega) b0 w0.le hq
    rw [← hS, ← hw] at h
    refine h.trans (mul_le_mul_of_nonneg_right ?_ (Real.Gamma_pos_of_pos hs).le)
    have := mul_le_mul_of_nonneg_left (η1 (2 * m)) b0
    linarith
  have Gp : 0 < ‖Complex.Gamma s‖ := norm_pos_iff.2 (Complex.Gamma_ne_zero_of_re_pos hs)
  have lim2 : ‖(w : ℂ) * η - S‖ ≤ (1 / ((n + 1 : ℕ) : ℝ) ^ 2 + 2) * (‖s‖ / s.re * Real.exp (Real.pi * |s.im| / 2)) := by
    refine le_of_mul_le_mul_right ?_ Gp
    refine lim.trans ?_
    have := mul_le_mul_of_nonneg_left (gamma_ratio hs) b0
    linarith
  rw [← hS, ← hη, ← hw]
  rw [← hw] at w0
  have wc : (w : ℂ) ≠ 0 := by exact_mod_cast w0.ne'
  rw [show S / (w : ℂ) - η = -((w : ℂ) * η - S) / w by field_simp; ring, norm_div, norm_neg, Complex.norm_real, Real.norm_of_nonneg w0.le, div_le_iff₀ w0]
  refine lim2.trans ?_
  have h2 : 1 / ((n + 1 : ℕ) : ℝ) ^ 2 + 2 ≤ (((n + 1 : ℕ) : ℝ) + 1) / (291 / 50) ^ n * w := by
    rw [div_mul_eq_mul_div, le_div_iff₀ p5, hw, tail_coef]
    generalize ((n + 1 : ℕ) : ℝ) = y at *
    generalize (291 / 50 : ℝ) ^ n = P at *
    have y0 : 0 < y := by linarith
    have e : (y + 1) * (1 / y ^ 2 + 2 / y * V n (-1)) = (y + 1) / y ^ 2 + (2 + 2 / y) * V n (-1) := by field_simp
    rw [e]
    have a : (2 + 2 / y) * P ≤ (2 + 2 / y) * V n (-1) := by gcongr
    have b : 1 / y ^ 2 ≤ 2 / y := by
      rw [div_le_div_iff₀ (by positivity) y0]; nlinarith
    have c : 1 / y ^ 2 * P ≤ 2 / y * P := by gcongr
    have d : 0 ≤ (y + 1) / y ^ 2 := by positivity
    linarith
  rw [show n + 1 - 1 = n by omega]
  have X0 : 0 ≤ ‖s‖ / s.re * Real.exp (Real.pi * |s.im| / 2) := by positivity
  have := mul_le_mul_of_nonneg_right h2 X0
  linarith

end EFX.Borw
