import Verif.Lemmas.RealExp
import Verif.Lemmas.RealSinCos
import Verif.Props.Hyper
/-! C65: the exponential function. -/

namespace EFX.Props
open EFX

/-- The scaled series, for a positive argument that is not a multiple of `ln 2`. -/
theorem expCore_near {E : RealEnv} (t0 : 10 ≤ E.tol) (ht : E.tol ≤ 29990) {x : ℝ} (h0 : 0 < x) (h1 : x ≤ 2 ^ 62)
    (hx : ∀ n : ℤ, x ≠ n * Real.log 2) :
    |Real.exp x - Fn.expCore (realArith E) x| ≤ 4600 * (10 : ℝ) ^ (-E.tol) * Real.exp x := by
  have tp : (0 : ℝ) < (10 : ℝ) ^ (-E.tol) := by positivity
  have tl : (10 : ℝ) ^ (-E.tol) ≤ 1 / 10000000000 := by
    have : (10 : ℝ) ^ (-E.tol) ≤ (10 : ℝ) ^ (-10 : ℤ) := zpow_le_zpow_right₀ (by norm_num) (by omega)
    refine le_trans this (by norm_num)
  have l2 := Real.log_two_gt_d9
  have l2' := Real.log_two_lt_d9
  have lp : 0 < Real.log 2 := by linarith
  unfold Fn.expCore
  simp only
  ra_simp
  by_cases ho : ordR x > -4
  · rw [if_pos ho]
    have e1 : x * (1 / Real.log 2) = x / Real.log 2 := by ring
    rw [e1, truncR_nonneg (by positivity), truncR_nonneg (by positivity)]
    rw [Int.floor_intCast]
    have n0 : 0 ≤ ⌊x / Real.log 2⌋ := Int.floor_nonneg.2 (by positivity)
    have f1 := Int.floor_le (x / Real.log 2)
    have f2 := Int.lt_floor_add_one (x / Real.log 2)
    rw [le_div_iff₀ lp] at f1
    rw [div_lt_iff₀ lp] at f2
    have hn := hx ⌊x / Real.log 2⌋
    generalize ⌊x / Real.log 2⌋ = n at *
    have n1 : n < 2 ^ 63 := by
      have : (n : ℝ) < ((2 ^ 63 : ℤ) : ℝ) := by push_cast; nlinarith
      exact_mod_cast this
    rw [ra_pow2 E (by omega) n1, ra_pown E _ (by norm_num)]
    have rp : 0 < x - n * Real.log 2 := lt_of_le_of_ne (by linarith) (fun h => hn (by linarith))
    have zp : 0 < (x - n * Real.log 2) / ((2048 : ℤ) : ℝ) := by push_cast; positivity
    have zs : (x - n * Real.log 2) / ((2048 : ℤ) : ℝ) ≤ 1 / 1000 := by
      push_cast
      rw [div_le_iff₀ (by norm_num)]
      nlinarith
    have ex : Real.exp x = Real.exp ((x - n * Real.log 2) / ((2048 : ℤ) : ℝ)) ^ 2048 * 2 ^ n := by
      rw [← Real.exp_nat_mul]
      push_cast
      rw [show (2048 : ℝ) * ((x - n * Real.log 2) / 2048) = x - n * Real.log 2 by ring, Real.exp_sub, mul_comm (n : ℝ),
        Real.exp_mul, Real.exp_log (by norm_num), Real.rpow_intCast]
      field_simp
    have hz := (hyp0f0_near ht zp zs).1
    have z1 : 1 ≤ Real.exp ((x - n * Real.log 2) / ((2048 : ℤ) : ℝ)) := Real.one_le_exp zp.le
    have hp := pow_near (a := Real.exp ((x - n * Real.log 2) / ((2048 : ℤ) : ℝ))) (ε := 22 / 10 * (10 : ℝ) ^ (-E.tol)) (by positivity)
      (le_trans hz (by nlinarith)) (by positivity) 2048 (by push_cast; linarith)
    rw [ex]
    rw [show ((2048 : ℤ)) = ((2048 : ℕ) : ℤ) from rfl, zpow_natCast] at *
    rw [← sub_mul, abs_mul, abs_of_pos (by positivity : (0 : ℝ) < 2 ^ n)]
    rw [← mul_assoc]
    apply mul_le_mul_of_nonneg_right _ (by positivity)
    refine le_trans hp ?_
    apply mul_le_mul_of_nonneg_right _ (by positivity)
    push_cast
    linarith
  · rw [if_neg ho]
    have := ordR_lt_small h0 (k := -3) (by omega)
    norm_num at this
    have hz := (hyp0f0_near ht h0 (by linarith)).1
    have z1 : 1 ≤ Real.exp x := Real.one_le_exp h0.le
    nlinarith

theorem truncR_int (n : ℤ) : truncR n = n := by
  unfold truncR
  split <;> simp

/-- C65 in exact arithmetic: between the exponent limits the relative error is at most `4700 * 10^-tolerance`.  Multiples
of `ln 2` are excluded: the exact remainder is then zero and `0F0(0)` is NaN (`C63_terminating_refuted`). -/
theorem C65_exp_partial {E : RealEnv} (t0 : 10 ≤ E.tol) (ht : E.tol ≤ 29990) (hm : E.maxExp ≤ 2 ^ 62) {x : ℝ}
    (h1 : |x| ≤ E.maxExp) (hx : ∀ n : ℤ, x ≠ 0 → x ≠ n * Real.log 2) :
    |Real.exp x - Fn.exp (realArith E) x| ≤ 4700 * (10 : ℝ) ^ (-E.tol) * Real.exp x := by
  have tp : (0 : ℝ) < (10 : ℝ) ^ (-E.tol) := by positivity
  have tl : (10 : ℝ) ^ (-E.tol) ≤ 1 / 10000000000 := by
    have : (10 : ℝ) ^ (-E.tol) ≤ (10 : ℝ) ^ (-10 : ℤ) := zpow_le_zpow_right₀ (by norm_num) (by omega)
    refine le_trans this (by norm_num)
  unfold Fn.exp
  simp only [Bool.or_eq_true, decide_eq_true_eq]
  ra_simp
  rw [if_neg (by simp), if_neg (by simp)]
  by_cases hz : x = 0 ∨ ordR x < -E.tol
  · rw [if_pos hz]
    by_cases h0 : x = 0
    · rw [h0, Real.exp_zero, sub_self, abs_zero]; positivity
    · have hs := (ordR_lt h0).1 (hz.resolve_left h0)
      have := Real.abs_exp_sub_one_le (x := x) (by linarith)
      have h2 : 1 / 2 ≤ Real.exp x := by
        have h3 := (abs_le.1 this).1
        linarith [abs_nonneg x]
      nlinarith
  rw [if_neg hz]
  have h0 : x ≠ 0 := fun h => hz (Or.inl h)
  have xx : (if (!(realArith E).isneg x) = true then x else -x) = |x| := by
    by_cases hn : x < 0
    · rw [abs_of_neg hn, show (realArith E).isneg x = true by rw [ra_isneg]; exact hn]; simp
    · rw [abs_of_nonneg (not_lt.1 hn), show (realArith E).isneg x = false by rw [ra_isneg']; exact hn]; simp
  rw [xx, if_neg (not_lt.2 h1)]
  by_cases hi : (truncR x : ℝ) = x
  · rw [if_pos hi]
    have hb : |(truncR x : ℝ)| ≤ 2 ^ 62 := by rw [hi]; linarith
    have hb2 : -2 ^ 63 < truncR x := by
      have := (abs_le.1 hb).1
      have h3 : ((-2 ^ 62 : ℤ) : ℝ) ≤ (truncR x : ℝ) := by push_cast; linarith
      have h4 : (-2 ^ 62 : ℤ) ≤ truncR x := by exact_mod_cast h3
      omega
    rw [ra_pown E _ hb2, ← Real.rpow_intCast, Real.exp_one_rpow, hi, sub_self, abs_zero]
    positivity
  rw [if_neg hi]
  have ap : 0 < |x| := abs_pos.2 h0
  have hc := expCore_near t0 ht ap (by linarith) (by
    intro n hn
    rcases abs_cases x with ⟨h, _⟩ | ⟨h, _⟩
    · exact hx n h0 (by linarith)
    · exact hx (-n) h0 (by push_cast; linarith))
  generalize Fn.expCore (realArith E) |x| = v at *
  by_cases hn : x < 0
  · rw [show (realArith E).isneg x = true by rw [ra_isneg]; exact hn, if_neg (by simp)]
    rw [show Real.exp x = (Real.exp |x|)⁻¹ by rw [abs_of_neg hn, Real.exp_neg, inv_inv]]
    have ep := Real.exp_pos |x|
    generalize Real.exp |x| = w at *
    have hv : |w - v| ≤ w / 1000000 := by nlinarith
    have v1 : 999999 / 1000000 * w ≤ v := by
      have := (abs_le.1 hv).2
      linarith
    have v0 : 0 < v := by nlinarith
    rw [one_div, inv_sub_inv ep.ne' v0.ne', abs_div, abs_sub_comm, abs_of_pos (by positivity : 0 < w * v),
      div_le_iff₀ (by positivity), show 4700 * (10 : ℝ) ^ (-E.tol) * w⁻¹ * (w * v) = 4700 * (10 : ℝ) ^ (-E.tol) * v by field_simp]
    refine le_trans hc ?_
    nlinarith
  · rw [show (realArith E).isneg x = false by rw [ra_isneg']; exact hn, if_pos (by simp)]
    rw [abs_of_nonneg (not_lt.1 hn)] at hc
    have ep := Real.exp_pos x
    nlinarith

/-- The hypotheses hold at 101 digits (tolerance 112) for the argument `1/2`. -/
example (E : RealEnv) (h : E.tol = 112) (hm : E.maxExp = 4944763836) :
    |Real.exp (1 / 2) - Fn.exp (realArith E) (1 / 2)| ≤ 4700 * (10 : ℝ) ^ (-112 : ℤ) * Real.exp (1 / 2) := by
  have hx : ∀ n : ℤ, (1 / 2 : ℝ) ≠ n * Real.log 2 := by
    intro n h
    have l2 := Real.log_two_gt_d9
    rcases le_or_gt n 0 with hn | hn
    · have : (n : ℝ) ≤ 0 := by exact_mod_cast hn
      nlinarith
    · have : (1 : ℝ) ≤ n := by exact_mod_cast hn
      nlinarith
  have := C65_exp_partial (E := E) (x := 1 / 2) (by omega) (by omega) (by rw [hm]; norm_num)
    (by rw [hm, abs_of_pos (by norm_num)]; norm_num) (fun n _ => hx n)
  rwa [h] at this

/-- C65 refuted at the multiples of `ln 2`, exact arithmetic: the remainder is zero and its series NaN is what is raised
to the power 2048. -/
theorem C65_ln2_refuted (E : RealEnv) (ht : 0 ≤ E.tol) (n : ℕ) (hn : 0 < n) (hn2 : n < 2 ^ 62) :
    Fn.expCore (realArith E) (n * Real.log 2) = E.nan ^ 2048 * 2 ^ n := by
  have lp : 0 < Real.log 2 := Real.log_pos (by norm_num)
  have l2 := Real.log_two_gt_d9
  have n1 : (1 : ℝ) ≤ n := by exact_mod_cast hn
  unfold Fn.expCore
  simp only
  ra_simp
  have ho : ordR (n * Real.log 2) > -4 := by
    by_contra h
    have := ordR_lt_small (y := n * Real.log 2) (by positivity) (k := -3) (by omega)
    norm_num at this
    nlinarith
  rw [if_pos ho, show (n : ℝ) * Real.log 2 * (1 / Real.log 2) = ((n : ℤ) : ℝ) by field_simp; push_cast; ring, truncR_int, truncR_int]
  push_cast
  rw [sub_self, zero_div, (C63_terminating_refuted E ht 0 (by omega) 0 0 0).2.2.2.1, ra_pown E _ (by norm_num),
    ra_pow2 E (by omega) (by omega)]
  norm_cast

end EFX.Props
