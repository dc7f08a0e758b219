import Verif.Lemmas.RealSinCos
/-! C64: sine and cosine. -/

namespace EFX.Props
open EFX

/-- C64, sine in exact arithmetic: for every real argument the relative error is at most `4 * 10^-tolerance`. -/
theorem C64_sin_partial {E : RealEnv} (t0 : 10 ≤ E.tol) (ht : E.tol ≤ 59990) (x : ℝ) :
    |Real.sin x - Fn.sin (realArith E) x| ≤ 4 * (10 : ℝ) ^ (-E.tol) * |Real.sin x| := by
  have pp := Real.pi_pos
  obtain ⟨r0, r1, n, rn, rf⟩ := reducePi_spec E (abs_nonneg x)
  unfold Fn.sin
  simp only
  ra_simp
  generalize Fn.reducePi (realArith E) |x| = r at *
  rw [if_neg (by simp)]
  generalize hy : (if Real.pi / 2 < r.1 then Real.pi - r.1 else r.1) = y
  have y0 : 0 ≤ y := by rw [← hy]; split <;> linarith
  have y1 : y ≤ Real.pi / 2 := by rw [← hy]; split <;> linarith
  have ys : Real.sin y = Real.sin r.1 := by
    rw [← hy]; split
    · exact Real.sin_pi_sub _
    · rfl
  have hc := sinCore_near t0 ht y0 y1
  have s0 : 0 ≤ Real.sin y := Real.sin_nonneg_of_nonneg_of_le_pi y0 (by linarith)
  have sa : Real.sin |x| = (-1) ^ n * Real.sin y := by
    rw [rn, Real.sin_add_int_mul_pi, ys]
  generalize Fn.sinCore (realArith E) y = v at *
  by_cases hx : x < 0
  · have sx : Real.sin x = -Real.sin |x| := by rw [abs_of_neg hx, Real.sin_neg, neg_neg]
    rcases Int.even_or_odd n with he | ho
    · have h2 : r.2 = false := by
        rw [← Bool.not_eq_true, rf, Int.not_odd_iff_even]; exact he
      rw [sx, sa, he.neg_one_zpow, h2, if_pos (by simp [realArith, hx]), one_mul, abs_neg, abs_of_nonneg s0, ← abs_neg]
      rw [show -(-Real.sin y - -v) = Real.sin y - v by ring]; exact hc
    · have h2 : r.2 = true := rf.2 ho
      rw [sx, sa, ho.neg_one_zpow, h2, if_neg (by simp [realArith, hx])]
      rw [show -(-1 * Real.sin y) = Real.sin y by ring, abs_of_nonneg s0]; exact hc
  · have sx : Real.sin x = Real.sin |x| := by rw [abs_of_nonneg (not_lt.1 hx)]
    rcases Int.even_or_odd n with he | ho
    · have h2 : r.2 = false := by
        rw [← Bool.not_eq_true, rf, Int.not_odd_iff_even]; exact he
      rw [sx, sa, he.neg_one_zpow, h2, if_neg (by simpa [realArith] using hx), one_mul, abs_of_nonneg s0]; exact hc
    · have h2 : r.2 = true := rf.2 ho
      rw [sx, sa, ho.neg_one_zpow, h2, if_pos (by simpa [realArith] using hx), neg_one_mul, abs_neg, abs_of_nonneg s0, ← abs_neg]
      rw [show -(-Real.sin y - -v) = Real.sin y - v by ring]; exact hc

/-- C64, cosine in exact arithmetic: for every real argument the absolute error is at most `10^(9 - tolerance)`, and the
relative error at most `10^(10 + max(tolerance/10, 6) - tolerance)`. -/
theorem C64_cos_partial {E : RealEnv} (t0 : 12 ≤ E.tol) (ht : E.tol ≤ 59990) (x : ℝ) :
    |Real.cos x - Fn.cos (realArith E) x| ≤ (10 : ℝ) ^ (9 - E.tol) ∧
    |Real.cos x - Fn.cos (realArith E) x| ≤ (10 : ℝ) ^ (10 + max (E.tol / 10) 6 - E.tol) * |Real.cos x| := by
  have pp := Real.pi_pos
  obtain ⟨r0, r1, n, rn, rf⟩ := reducePi_spec E (abs_nonneg x)
  unfold Fn.cos
  simp only
  ra_simp
  generalize Fn.reducePi (realArith E) |x| = r at *
  rw [if_neg (by simp)]
  have sa : Real.cos x = (-1) ^ n * Real.cos r.1 := by
    rw [← Real.cos_abs, rn, Real.cos_add_int_mul_pi]
  have key : ∀ (b : Bool) (y : ℝ), 0 ≤ y → y ≤ Real.pi / 2 → Real.cos x = (if b = true then -1 else 1) * Real.cos y →
      |Real.cos x - (if b = true then -Fn.cosCore (realArith E) y else Fn.cosCore (realArith E) y)| ≤ (10 : ℝ) ^ (9 - E.tol) ∧
      |Real.cos x - (if b = true then -Fn.cosCore (realArith E) y else Fn.cosCore (realArith E) y)| ≤
        (10 : ℝ) ^ (10 + max (E.tol / 10) 6 - E.tol) * |Real.cos x| := by
    intro b y y0 y1 hxy
    have hc := cosCore_near t0 ht y0 y1
    have c0 : 0 ≤ Real.cos y := Real.cos_nonneg_of_neg_pi_div_two_le_of_le (by linarith) y1
    rw [hxy]
    cases b
    · simp only [Bool.false_eq_true, if_false, one_mul, abs_of_nonneg c0]; exact hc
    · simp only [if_true, neg_one_mul, abs_neg, abs_of_nonneg c0]
      rw [show -Real.cos y - -Fn.cosCore (realArith E) y = -(Real.cos y - Fn.cosCore (realArith E) y) by ring, abs_neg]
      exact hc
  by_cases hb : Real.pi / 2 < r.1
  · rw [if_pos hb, show (realArith E).lt (Real.pi / 2) r.1 = true from by rw [ra_lt]; exact hb]
    apply key _ _ (by linarith) (by linarith)
    rw [sa, Real.cos_pi_sub]
    rcases Int.even_or_odd n with he | ho
    · have h2 : r.2 = false := by
        rw [← Bool.not_eq_true, rf, Int.not_odd_iff_even]; exact he
      rw [h2, he.neg_one_zpow]; simp
    · rw [rf.2 ho, ho.neg_one_zpow]; simp
  · rw [if_neg hb, show (realArith E).lt (Real.pi / 2) r.1 = false from by rw [ra_lt']; exact hb]
    apply key _ _ r0 (by linarith)
    rw [sa]
    rcases Int.even_or_odd n with he | ho
    · have h2 : r.2 = false := by
        rw [← Bool.not_eq_true, rf, Int.not_odd_iff_even]; exact he
      rw [h2, he.neg_one_zpow]; simp
    · rw [rf.2 ho, ho.neg_one_zpow]; simp

/-- C64, tangent in exact arithmetic: relative error at most `10^(11 + max(tolerance/10, 6) - tolerance)`. -/
theorem C64_tan_partial {E : RealEnv} (t0 : 20 ≤ E.tol) (ht : E.tol ≤ 59990) (x : ℝ) (hx : Real.cos x ≠ 0) :
    |Real.tan x - Fn.tan (realArith E) x| ≤ (10 : ℝ) ^ (11 + max (E.tol / 10) 6 - E.tol) * |Real.tan x| := by
  have hs := C64_sin_partial (E := E) (by omega) ht x
  have hc := (C64_cos_partial (E := E) (by omega) ht x).2
  have e11 : (10 : ℝ) ^ (11 + max (E.tol / 10) 6 - E.tol) = 10 * (10 : ℝ) ^ (10 + max (E.tol / 10) 6 - E.tol) := by
    rw [show (11 + max (E.tol / 10) 6 - E.tol) = 1 + (10 + max (E.tol / 10) 6 - E.tol) by ring, zpow_add₀ (by norm_num), zpow_one]
  have b1 : (10 : ℝ) ^ (10 + max (E.tol / 10) 6 - E.tol) ≤ 1 / 10 := by
    refine le_trans (zpow_le_zpow_right₀ (by norm_num) (show _ ≤ (-1 : ℤ) by omega)) (by norm_num)
  have ab : 4 * (10 : ℝ) ^ (-E.tol) ≤ (10 : ℝ) ^ (10 + max (E.tol / 10) 6 - E.tol) := by
    have h1 : (10 : ℝ) ^ (1 - E.tol) ≤ (10 : ℝ) ^ (10 + max (E.tol / 10) 6 - E.tol) :=
      zpow_le_zpow_right₀ (by norm_num) (by omega)
    rw [sub_eq_add_neg, zpow_add₀ (by norm_num), zpow_one] at h1
    have : (0 : ℝ) < (10 : ℝ) ^ (-E.tol) := by positivity
    linarith
  have ab' : |Real.sin x - Fn.sin (realArith E) x| ≤ (10 : ℝ) ^ (10 + max (E.tol / 10) 6 - E.tol) * |Real.sin x| :=
    le_trans hs (mul_le_mul_of_nonneg_right ab (abs_nonneg _))
  have b0 : (0 : ℝ) < (10 : ℝ) ^ (10 + max (E.tol / 10) 6 - E.tol) := by positivity
  rw [e11]
  generalize (10 : ℝ) ^ (10 + max (E.tol / 10) 6 - E.tol) = b at *
  have et : Fn.tan (realArith E) x = Fn.sin (realArith E) x / Fn.cos (realArith E) x := by unfold Fn.tan; ra_simp
  rw [et, Real.tan_eq_sin_div_cos]
  generalize Fn.sin (realArith E) x = S at *
  generalize Fn.cos (realArith E) x = C at *
  generalize Real.sin x = s at *
  generalize Real.cos x = c at *
  have cp : 0 < |c| := abs_pos.2 hx
  have C1 : 9 / 10 * |c| ≤ |C| := by
    have h1 := abs_sub_abs_le_abs_sub c C
    nlinarith
  have C0 : C ≠ 0 := by
    intro h; rw [h, abs_zero] at C1; linarith
  have Cp : 0 < |C| := abs_pos.2 C0
  rw [div_sub_div _ _ hx C0, abs_div, abs_div, abs_mul, div_le_iff₀ (by positivity)]
  have h1 : |s * C - c * S| ≤ |s| * |c - C| + |c| * |s - S| := by
    rw [show s * C - c * S = -(s * (c - C)) + c * (s - S) by ring]
    refine le_trans (abs_add_le _ _) ?_
    rw [abs_neg, abs_mul, abs_mul]
  have h2 : |s| * |c - C| ≤ |s| * (b * |c|) := mul_le_mul_of_nonneg_left hc (abs_nonneg _)
  have h3 : |c| * |s - S| ≤ |c| * (b * |s|) := mul_le_mul_of_nonneg_left ab' (abs_nonneg _)
  have h4 : 10 * b * (|s| / |c|) * (|c| * |C|) = 10 * b * |s| * |C| := by field_simp
  rw [h4]
  have h5 : 10 * b * |s| * (9 / 10 * |c|) ≤ 10 * b * |s| * |C| := mul_le_mul_of_nonneg_left C1 (by positivity)
  have h6 : 0 ≤ b * |s| * |c| := by positivity
  linarith

/-- The hypotheses hold at 101 digits, where the tolerance is 112. -/
example (E : RealEnv) (h : E.tol = 112) :
    |Real.sin 1000000 - Fn.sin (realArith E) 1000000| ≤ 4 * (10 : ℝ) ^ (-112 : ℤ) * |Real.sin 1000000| := by
  have := C64_sin_partial (E := E) (by omega) (by omega) 1000000
  rwa [h] at this

/-- C64 refuted for large digit counts: with a tolerance of 190000 or more the 9999 terms of the series are never enough,
and the sine series of any scaled argument `y ≥ 2 * 10^-5` (that is, of every angle from 0.4 to `pi/2 - 10^-6`) ends
with NaN. -/
theorem C64_large_refuted {E : RealEnv} (ht : 190000 ≤ E.tol) {y : ℝ} (h0 : 2 / 100000 ≤ y) (h1 : y ≤ 1 / 1000) :
    Fn.hyp0f1 (realArith E) (3 / 2) (-(y * y) / 4) = E.nan := by
  apply (hyp0f1_real E _ _).fail
  intro m m1 m2 hst
  have y0 : 0 < y := by linarith
  have hx : |-(y * y) / 4| = y * y / 4 := by rw [neg_div, abs_neg, abs_of_nonneg (by positivity)]
  have xl : (10 : ℝ) ^ (-10 : ℤ) ≤ |-(y * y) / 4| := by rw [hx]; norm_num; nlinarith
  have xu : |-(y * y) / 4| ≤ 1 / 1000000 := by rw [hx]; nlinarith
  -- the terms are not too small
  have low : ∀ n : ℕ, n ≤ 10000 → ((10 : ℝ) ^ (-19 : ℤ)) ^ n ≤ |t0f1 (3 / 2) (-(y * y) / 4) n| := by
    intro n
    induction n with
    | zero => intro _; simp [t0f1, xn_zero, poch_zero]
    | succ n ih =>
      intro hn
      rw [t0f1_succ, abs_mul, pow_succ]
      apply mul_le_mul (ih (by omega)) _ (by positivity) (abs_nonneg _)
      rw [abs_div, le_div_iff₀ (abs_pos.2 (by positivity))]
      refine le_trans ?_ xl
      have h3 : (n : ℝ) ≤ 10000 := by exact_mod_cast (by omega : n ≤ 10000)
      have h4 : |((n : ℝ) + 1) * (3 / 2 + n)| ≤ 1000000000 := by
        rw [abs_of_pos (by positivity)]
        nlinarith [(Nat.cast_nonneg n : (0 : ℝ) ≤ n)]
      calc (10 : ℝ) ^ (-19 : ℤ) * |((n : ℝ) + 1) * (3 / 2 + n)| ≤ (10 : ℝ) ^ (-19 : ℤ) * 1000000000 :=
            mul_le_mul_of_nonneg_left h4 (by positivity)
        _ = (10 : ℝ) ^ (-10 : ℤ) := by norm_num
  have up : ∀ n, |t0f1 (3 / 2) (-(y * y) / 4) n| ≤ 2 := by
    intro n
    cases n with
    | zero => simp [t0f1, xn_zero, poch_zero]
    | succ n =>
      refine le_trans (t0f1_bound (by norm_num) n) ?_
      have := pow_le_one₀ (abs_nonneg (-(y * y) / 4)) (le_trans xu (by norm_num)) (n := n + 1)
      linarith
  have sup : |psum (t0f1 (3 / 2) (-(y * y) / 4)) m| < (10 : ℝ) ^ (5 : ℤ) := by
    unfold psum
    refine lt_of_le_of_lt (Finset.abs_sum_le_sum_abs _ _) ?_
    refine lt_of_le_of_lt (Finset.sum_le_card_nsmul _ _ 2 (fun i _ => up i)) ?_
    rw [Finset.card_range, nsmul_eq_mul]
    have : (m : ℝ) ≤ 10000 := by exact_mod_cast m2.le
    norm_num
    linarith
  have os : ordR (psum (t0f1 (3 / 2) (-(y * y) / 4)) m) < 5 := by
    by_cases hz : psum (t0f1 (3 / 2) (-(y * y) / 4)) m = 0
    · rw [hz, ordR_zero]; norm_num
    · exact (ordR_lt hz).2 sup
  have hm := low m m2.le
  have ha : t0f1 (3 / 2) (-(y * y) / 4) m ≠ 0 := by
    intro h
    rw [h, abs_zero] at hm
    have : (0 : ℝ) < ((10 : ℝ) ^ (-19 : ℤ)) ^ m := by positivity
    linarith
  have oa : ¬ordR (t0f1 (3 / 2) (-(y * y) / 4) m) < -19 * m := by
    rw [ordR_lt ha, not_lt, zpow_mul, zpow_natCast]
    exact hm
  unfold Stops at hst
  omega

end EFX.Props
