import Mathlib.Analysis.Real.Pi.Bounds
import Verif.Lemmas.RealTrig
import Verif.Lemmas.RealArith
/-! Sine and cosine of the reduced argument and the argument reduction, in exact arithmetic. -/

namespace EFX
open Finset

theorem ordR_lt_small {y : ℝ} (hy : 0 < y) {k : ℤ} (h : ordR y < k) : y < (10 : ℝ) ^ k := by
  have := (ordR_lt hy.ne').1 h
  rwa [abs_of_pos hy] at this

/-- The factor `sin y / y` of a small argument. -/
theorem sinc_near {E : RealEnv} (ht : E.tol ≤ 59990) {y : ℝ} (h0 : 0 < y) (h1 : y ≤ 2 / 1000) :
    |Real.sin y - y * Fn.hyp0f1 (realArith E) (3 / 2) (-(y * y) / 4)| ≤ (205 / 100) * (10 : ℝ) ^ (-E.tol) * y := by
  have hx : -(y * y) / 4 ≠ 0 := by
    have : 0 < y * y := by positivity
    intro h; linarith
  have hx6 : |-(y * y) / 4| ≤ 1 / 1000000 := by
    rw [neg_div, abs_neg, abs_of_nonneg (by positivity)]
    nlinarith
  have l1 : 99 / 100 ≤ |Real.sin y / y| := by
    rw [abs_of_nonneg (div_nonneg (Real.sin_nonneg_of_nonneg_of_le_pi h0.le (by linarith [Real.pi_gt_three])) h0.le),
      le_div_iff₀ h0]
    have := Real.sin_gt_sub_cube h0
    have h3 : y ^ 3 ≤ y * (4 / 1000000) := by
      rw [show y ^ 3 = y * (y * y) by ring]
      apply mul_le_mul_of_nonneg_left _ h0.le
      nlinarith
    linarith
  have l2 : |Real.sin y / y| ≤ 101 / 100 := by
    rw [abs_of_nonneg (div_nonneg (Real.sin_nonneg_of_nonneg_of_le_pi h0.le (by linarith [Real.pi_gt_three])) h0.le),
      div_le_iff₀ h0]
    have := Real.sin_lt h0
    linarith
  have h := (hyp0f1_near ht (by norm_num) hx hx6 (hasSum_sinc h0.ne') l1 l2).1
  have e : Real.sin y - y * Fn.hyp0f1 (realArith E) (3 / 2) (-(y * y) / 4) =
      (Real.sin y / y - Fn.hyp0f1 (realArith E) (3 / 2) (-(y * y) / 4)) * y := by
    field_simp
  rw [e, abs_mul, abs_of_pos h0]
  exact mul_le_mul_of_nonneg_right h h0.le

/-- The cosine of a small argument. -/
theorem cosc_near {E : RealEnv} (ht : E.tol ≤ 59990) {y : ℝ} (h0 : 0 < y) (h1 : y ≤ 2 / 1000) :
    |Real.cos y - Fn.hyp0f1 (realArith E) (1 / 2) (-(y * y) / 4)| ≤ (205 / 100) * (10 : ℝ) ^ (-E.tol) := by
  have hx : -(y * y) / 4 ≠ 0 := by
    have : 0 < y * y := by positivity
    intro h; linarith
  have hx6 : |-(y * y) / 4| ≤ 1 / 1000000 := by
    rw [neg_div, abs_neg, abs_of_nonneg (by positivity)]
    nlinarith
  have l1 : 99 / 100 ≤ |Real.cos y| := by
    refine le_trans ?_ (le_abs_self _)
    have := Real.one_sub_sq_div_two_le_cos (x := y)
    nlinarith
  have l2 : |Real.cos y| ≤ 101 / 100 := le_trans (Real.abs_cos_le_one y) (by norm_num)
  exact (hyp0f1_near ht (by norm_num) hx hx6 (hasSum_cosc y) l1 l2).1

theorem tripleSin_near (E : RealEnv) : ∀ (k : ℕ) (u s e : ℝ), 0 ≤ u → u * 3 ^ k ≤ Real.pi / 2 → |Real.sin u - s| ≤ e →
    e * 3 ^ k ≤ 1 / 5 → |Real.sin (u * 3 ^ k) - Fn.tripleSin (realArith E) k s| ≤ e * 3 ^ k
  | 0, u, s, e, _, _, h, _ => by simpa [Fn.tripleSin] using h
  | k + 1, u, s, e, h0, hu, h, he => by
    have e0 : 0 ≤ e := le_trans (abs_nonneg _) h
    have p1 : (1 : ℝ) ≤ 3 ^ k := one_le_pow₀ (by norm_num)
    rw [pow_succ] at hu he ⊢
    have ih := tripleSin_near E k (u * 3) (-(s * (s * s) * (4 : ℤ)) + s * (3 : ℤ)) (e * 3) (by positivity) (by linarith) ?_
      (by linarith)
    · rw [show u * (3 ^ k * 3) = u * 3 * 3 ^ k by ring, show e * (3 ^ k * 3) = e * 3 * 3 ^ k by ring]
      exact ih
    · have u6 : u ≤ Real.pi / 6 := by nlinarith
      have s0 : 0 ≤ Real.sin u := Real.sin_nonneg_of_nonneg_of_le_pi h0 (by linarith [Real.pi_pos])
      have s1 : Real.sin u ≤ 1 / 2 := by
        rw [← Real.sin_pi_div_six]
        exact Real.sin_le_sin_of_le_of_le_pi_div_two (by linarith [Real.pi_pos]) (by linarith [Real.pi_pos]) u6
      have e5 : e ≤ 1 / 15 := by nlinarith
      rw [show u * 3 = 3 * u by ring, Real.sin_three_mul]
      push_cast
      rw [show 3 * Real.sin u - 4 * Real.sin u ^ 3 - (-(s * (s * s) * 4) + s * 3) =
        (Real.sin u - s) * (3 - 4 * (Real.sin u ^ 2 + Real.sin u * s + s ^ 2)) by ring, abs_mul]
      have hs := abs_le.1 h
      generalize Real.sin u = w at *
      have : |3 - 4 * (w ^ 2 + w * s + s ^ 2)| ≤ 3 := by
        rw [abs_le]
        constructor
        · nlinarith
        · nlinarith [sq_nonneg (w + s), sq_nonneg w, sq_nonneg s]
      exact mul_le_mul h this (abs_nonneg _) e0

theorem tripleCos_near (E : RealEnv) : ∀ (k : ℕ) (u c e : ℝ), |Real.cos u - c| ≤ e →
    e * (91 / 10) ^ k ≤ 1 / 200 → |Real.cos (u * 3 ^ k) - Fn.tripleCos (realArith E) k c| ≤ e * (91 / 10) ^ k
  | 0, u, s, e, h, _ => by simpa [Fn.tripleCos] using h
  | k + 1, u, c, e, h, he => by
    have e0 : 0 ≤ e := le_trans (abs_nonneg _) h
    have p1 : (1 : ℝ) ≤ (91 / 10) ^ k := one_le_pow₀ (by norm_num)
    rw [pow_succ] at he ⊢
    have ih := tripleCos_near E k (u * 3) (c * (c * c) * (4 : ℤ) - c * (3 : ℤ)) (e * (91 / 10)) ?_ (by linarith)
    · rw [pow_succ, show u * (3 ^ k * 3) = u * 3 * 3 ^ k by ring, show e * ((91 / 10) ^ k * (91 / 10)) = e * (91 / 10) * (91 / 10) ^ k by ring]
      exact ih
    · have e5 : e ≤ 1 / 1800 := by nlinarith
      rw [show u * 3 = 3 * u by ring, Real.cos_three_mul]
      push_cast
      rw [show 4 * Real.cos u ^ 3 - 3 * Real.cos u - (c * (c * c) * 4 - c * 3) =
        (Real.cos u - c) * (4 * (Real.cos u ^ 2 + Real.cos u * c + c ^ 2) - 3) by ring, abs_mul]
      have hs := abs_le.1 h
      have hc := abs_le.1 (Real.abs_cos_le_one u)
      generalize Real.cos u = w at *
      have : |4 * (w ^ 2 + w * c + c ^ 2) - 3| ≤ 91 / 10 := by
        rw [abs_le]
        constructor
        · nlinarith [sq_nonneg (w + c), sq_nonneg w, sq_nonneg c]
        · nlinarith
      exact mul_le_mul h this (abs_nonneg _) e0

theorem sinCore_near {E : RealEnv} (t0 : 10 ≤ E.tol) (ht : E.tol ≤ 59990) {y : ℝ} (h0 : 0 ≤ y) (h1 : y ≤ Real.pi / 2) :
    |Real.sin y - Fn.sinCore (realArith E) y| ≤ 4 * (10 : ℝ) ^ (-E.tol) * Real.sin y := by
  have tp : (0 : ℝ) < (10 : ℝ) ^ (-E.tol) := by positivity
  have tl : (10 : ℝ) ^ (-E.tol) ≤ 1 / 1000 := by
    have : (10 : ℝ) ^ (-E.tol) ≤ (10 : ℝ) ^ (-3 : ℤ) := zpow_le_zpow_right₀ (by norm_num) (by omega)
    refine le_trans this (by norm_num)
  have hsin : y ≤ (1575 / 1000) * Real.sin y := by
    have := Real.mul_le_sin h0 h1
    have hp := Real.pi_lt_d2
    have hpp := Real.pi_pos
    rw [div_mul_eq_mul_div, div_le_iff₀ hpp] at this
    nlinarith [Real.sin_nonneg_of_nonneg_of_le_pi h0 (by linarith)]
  -- an error of `2.05 * 10^-t * y` is small enough
  have fin : ∀ v : ℝ, |Real.sin y - v| ≤ (205 / 100) * (10 : ℝ) ^ (-E.tol) * y → |Real.sin y - v| ≤ 4 * (10 : ℝ) ^ (-E.tol) * Real.sin y := by
    intro v hv
    nlinarith
  unfold Fn.sinCore
  simp only [decide_eq_true_eq]
  ra_simp
  push_cast
  by_cases hz : y = 0
  · rw [if_pos hz, hz]; simp
  rw [if_neg hz]
  have yp : 0 < y := lt_of_le_of_ne h0 (Ne.symm hz)
  by_cases hh : y - Real.pi / 2 = 0
  · rw [if_pos hh, show y = Real.pi / 2 by linarith, Real.sin_pi_div_two]; simp; positivity
  rw [if_neg hh]
  by_cases hs : ordR y < -max (E.tol / 10) 6
  · rw [if_pos hs]
    have hl := le_max_right (E.tol / 10) 6
    have := ordR_lt_small yp (k := -3) (by omega)
    norm_num at this
    exact fin _ (sinc_near ht yp (by linarith))
  rw [if_neg hs]
  by_cases hd : ordR (Real.pi / 2 - y) < -max (E.tol / 10) 6
  · rw [if_pos hd]
    have dp : 0 < Real.pi / 2 - y := lt_of_le_of_ne (by linarith) (fun h => hh (by linarith))
    have hl := le_max_right (E.tol / 10) 6
    have := ordR_lt_small dp (k := -3) (by omega)
    norm_num at this
    have hc := cosc_near ht dp (by linarith)
    rw [Real.cos_pi_div_two_sub] at hc
    refine fin _ (le_trans hc ?_)
    have : 1 ≤ y := by linarith [Real.pi_gt_three]
    nlinarith
  rw [if_neg hd]
  by_cases ho : ordR y > -4
  · rw [if_pos ho, if_pos ho]
    have e9 : ((Fn.threePow9 : ℤ) : ℝ) = 19683 := by norm_num [Fn.threePow9]
    rw [e9]
    have up : 0 < y / 19683 := by positivity
    have hn := sinc_near ht up (by linarith [Real.pi_lt_d2])
    have hu : y / 19683 * 3 ^ 9 = y := by norm_num
    have := tripleSin_near E 9 (y / 19683) _ _ up.le (by rw [hu]; exact h1) hn (by
      rw [show 205 / 100 * (10 : ℝ) ^ (-E.tol) * (y / 19683) * 3 ^ 9 = 205 / 100 * (10 : ℝ) ^ (-E.tol) * (y / 19683 * 3 ^ 9) by ring, hu]
      nlinarith [Real.pi_lt_d2])
    rw [hu, show 205 / 100 * (10 : ℝ) ^ (-E.tol) * (y / 19683) * 3 ^ 9 = 205 / 100 * (10 : ℝ) ^ (-E.tol) * (y / 19683 * 3 ^ 9) by ring, hu] at this
    exact fin _ this
  · rw [if_neg ho, if_neg ho]
    have := ordR_lt_small yp (k := -3) (by omega)
    norm_num at this
    exact fin _ (sinc_near ht yp (by linarith))

theorem cosCore_near {E : RealEnv} (t0 : 12 ≤ E.tol) (ht : E.tol ≤ 59990) {y : ℝ} (h0 : 0 ≤ y) (h1 : y ≤ Real.pi / 2) :
    |Real.cos y - Fn.cosCore (realArith E) y| ≤ (10 : ℝ) ^ (9 - E.tol) ∧
    |Real.cos y - Fn.cosCore (realArith E) y| ≤ (10 : ℝ) ^ (10 + max (E.tol / 10) 6 - E.tol) * Real.cos y := by
  have tp : (0 : ℝ) < (10 : ℝ) ^ (-E.tol) := by positivity
  have tl : (10 : ℝ) ^ (-E.tol) ≤ 1 / 1000000000000 := by
    have : (10 : ℝ) ^ (-E.tol) ≤ (10 : ℝ) ^ (-12 : ℤ) := zpow_le_zpow_right₀ (by norm_num) (by omega)
    refine le_trans this (by norm_num)
  have lp : (1 : ℝ) ≤ (10 : ℝ) ^ (max (E.tol / 10) 6) := one_le_zpow₀ (by norm_num) (by omega)
  have e9 : (10 : ℝ) ^ (9 - E.tol) = 1000000000 * (10 : ℝ) ^ (-E.tol) := by
    rw [sub_eq_add_neg, zpow_add₀ (by norm_num)]; norm_num
  have e10 : (10 : ℝ) ^ (10 + max (E.tol / 10) 6 - E.tol) = 10000000000 * (10 : ℝ) ^ (max (E.tol / 10) 6) * (10 : ℝ) ^ (-E.tol) := by
    rw [sub_eq_add_neg, zpow_add₀ (by norm_num), zpow_add₀ (by norm_num)]; norm_num
  rw [e9, e10]
  have lneg : (10 : ℝ) ^ (-max (E.tol / 10) 6) * (10 : ℝ) ^ (max (E.tol / 10) 6) = 1 := by
    rw [← zpow_add₀ (by norm_num)]; simp
  have c0 : 0 ≤ Real.cos y := Real.cos_nonneg_of_neg_pi_div_two_le_of_le (by linarith [Real.pi_pos]) h1
  have c1 : Real.cos y ≤ 1 := Real.cos_le_one y
  have hcos : Real.pi / 2 - y ≤ (1575 / 1000) * Real.cos y := by
    have := Real.mul_le_sin (x := Real.pi / 2 - y) (by linarith) (by linarith)
    rw [Real.sin_pi_div_two_sub] at this
    have hp := Real.pi_lt_d2
    have hpp := Real.pi_pos
    rw [div_mul_eq_mul_div, div_le_iff₀ hpp] at this
    nlinarith
  unfold Fn.cosCore
  simp only [decide_eq_true_eq]
  ra_simp
  push_cast
  have hl := le_max_right (E.tol / 10) 6
  generalize max (E.tol / 10) 6 = l at *
  by_cases hz : y = 0
  · rw [if_pos hz, hz, Real.cos_zero, sub_self, abs_zero]; constructor <;> positivity
  rw [if_neg hz]
  have yp : 0 < y := lt_of_le_of_ne h0 (Ne.symm hz)
  by_cases hh : y - Real.pi / 2 = 0
  · rw [if_pos hh, show y = Real.pi / 2 by linarith, Real.cos_pi_div_two, sub_self, abs_zero]; constructor <;> positivity
  rw [if_neg hh]
  have dp : 0 < Real.pi / 2 - y := lt_of_le_of_ne (by linarith) (fun h => hh (by linarith))
  -- an error of `2.05 * 10^-t` below `1/1000`
  have fin : ∀ v : ℝ, y ≤ 2 / 1000 → |Real.cos y - v| ≤ (205 / 100) * (10 : ℝ) ^ (-E.tol) →
      |Real.cos y - v| ≤ 1000000000 * (10 : ℝ) ^ (-E.tol) ∧ |Real.cos y - v| ≤ 10000000000 * (10 : ℝ) ^ l * (10 : ℝ) ^ (-E.tol) * Real.cos y := by
    intro v hy hv
    have hc : 1 / 2 ≤ Real.cos y := by
      have := Real.one_sub_sq_div_two_le_cos (x := y)
      nlinarith
    refine ⟨by linarith, le_trans hv ?_⟩
    have : 1 * (1 / 2) ≤ (10 : ℝ) ^ l * Real.cos y := mul_le_mul lp hc (by norm_num) (by positivity)
    nlinarith
  by_cases hs : ordR y < -l
  · rw [if_pos hs]
    have := ordR_lt_small yp (k := -3) (by omega)
    norm_num at this
    exact fin _ (by linarith) (cosc_near ht yp (by linarith))
  rw [if_neg hs]
  by_cases hd : ordR (Real.pi / 2 - y) < -l
  · rw [if_pos hd]
    have := ordR_lt_small dp (k := -3) (by omega)
    norm_num at this
    have hc := sinc_near ht dp (by linarith)
    rw [Real.sin_pi_div_two_sub] at hc
    constructor
    · nlinarith
    · refine le_trans hc ?_
      have h5 : 205 / 100 * (10 : ℝ) ^ (-E.tol) * (Real.pi / 2 - y) ≤ 205 / 100 * (10 : ℝ) ^ (-E.tol) * (1575 / 1000 * Real.cos y) :=
        mul_le_mul_of_nonneg_left hcos (by positivity)
      have h6 : (10 : ℝ) ^ (-E.tol) * Real.cos y * 1 ≤ (10 : ℝ) ^ (-E.tol) * Real.cos y * (10 : ℝ) ^ l :=
        mul_le_mul_of_nonneg_left lp (by positivity)
      have h7 : 0 ≤ (10 : ℝ) ^ (-E.tol) * Real.cos y := by positivity
      nlinarith
  rw [if_neg hd]
  by_cases ho : ordR y > -4
  · rw [if_pos ho, if_pos ho]
    have e9 : ((Fn.threePow9 : ℤ) : ℝ) = 19683 := by norm_num [Fn.threePow9]
    rw [e9]
    have up : 0 < y / 19683 := by positivity
    have hn := cosc_near ht up (by linarith [Real.pi_lt_d2])
    have hu : y / 19683 * 3 ^ 9 = y := by norm_num
    have h9 := tripleCos_near E 9 (y / 19683) _ _ hn (by norm_num at tl ⊢; linarith)
    rw [hu] at h9
    have h8 : 205 / 100 * (10 : ℝ) ^ (-E.tol) * (91 / 10) ^ 9 ≤ 1000000000 * (10 : ℝ) ^ (-E.tol) := by
      generalize (10 : ℝ) ^ (-E.tol) = w at tp
      norm_num; linarith
    refine ⟨le_trans h9 h8, le_trans (le_trans h9 h8) ?_⟩
    have h5 : (10 : ℝ) ^ (-l) ≤ Real.pi / 2 - y := by
      by_contra hc
      exact hd ((ordR_lt dp.ne').2 (by rw [abs_of_pos dp]; exact not_le.1 hc))
    have h6 : 1 ≤ (10 : ℝ) ^ l * (1575 / 1000 * Real.cos y) := by
      rw [← lneg, mul_comm]
      exact mul_le_mul_of_nonneg_left (le_trans h5 hcos) (by positivity)
    nlinarith
  · rw [if_neg ho, if_neg ho]
    have := ordR_lt_small yp (k := -3) (by omega)
    norm_num at this
    exact fin _ (by linarith) (cosc_near ht yp (by linarith))

theorem truncR_nonneg {x : ℝ} (h : 0 ≤ x) : truncR x = ⌊x⌋ := by unfold truncR; rw [if_pos h]

/-- The reduced argument lies between 0 and pi, and the flag tells whether the number of removed multiples is odd. -/
theorem reducePi_spec (E : RealEnv) {a : ℝ} (ha : 0 ≤ a) : 0 ≤ (Fn.reducePi (realArith E) a).1 ∧
    (Fn.reducePi (realArith E) a).1 ≤ Real.pi ∧
    ∃ n : ℤ, a = (Fn.reducePi (realArith E) a).1 + n * Real.pi ∧ ((Fn.reducePi (realArith E) a).2 = true ↔ Odd n) := by
  have pp := Real.pi_pos
  unfold Fn.reducePi
  ra_simp
  by_cases h : Real.pi < a
  · rw [if_pos h]
    have hn : truncR (a / Real.pi) = ⌊a / Real.pi⌋ := truncR_nonneg (by positivity)
    rw [hn]
    have n0 : 0 ≤ ⌊a / Real.pi⌋ := Int.floor_nonneg.2 (by positivity)
    have f1 := Int.floor_le (a / Real.pi)
    have f2 := Int.lt_floor_add_one (a / Real.pi)
    rw [le_div_iff₀ pp] at f1
    rw [div_lt_iff₀ pp] at f2
    generalize ⌊a / Real.pi⌋ = n at *
    refine ⟨by simp only; linarith, by simp only; linarith, n, by simp only; ring, ?_⟩
    simp only [Bool.not_eq_true', ra_iszero']
    rw [truncR_nonneg (by positivity)]
    push_cast
    have hf : ⌊(n : ℝ) / 2⌋ = n / 2 := by
      have := Int.floor_div_natCast (n : ℝ) 2
      rw [Int.floor_intCast] at this
      exact_mod_cast this
    rw [hf, ← Int.not_even_iff_odd, not_iff_not]
    constructor
    · intro h
      have h1 : (n : ℝ) = 2 * ((n / 2 : ℤ) : ℝ) := by linarith
      have h2 : n = 2 * (n / 2) := by exact_mod_cast h1
      exact ⟨n / 2, by omega⟩
    · rintro ⟨k, rfl⟩
      rw [show (k + k) / 2 = k by omega]
      push_cast; ring
  · rw [if_neg h]
    exact ⟨ha, not_lt.1 h, 0, by simp, by simp⟩

end EFX
