import Mathlib.Analysis.SpecialFunctions.Log.Deriv
import Verif.Props.Exp
/-! C66: the logarithm. -/

namespace EFX
open Finset

/-! ## The series at one -/

theorem poch_one_fact (n : ℕ) : poch 1 n = n.factorial := by
  induction n with
  | zero => simp [poch_zero]
  | succ n ih => rw [poch_succ, ih, Nat.factorial_succ]; push_cast; ring

theorem poch_two_fact (n : ℕ) : poch 2 n = (n + 1).factorial := by
  induction n with
  | zero => simp [poch_zero]
  | succ n ih => rw [poch_succ, ih, Nat.factorial_succ (n + 1)]; push_cast; ring

theorem t2f1_log (x : ℝ) (n : ℕ) : t2f1 1 1 2 x n = x ^ n / (n + 1) := by
  unfold t2f1 xn
  rw [poch_one_fact, poch_two_fact, Nat.factorial_succ]
  have h1 : (n.factorial : ℝ) ≠ 0 := by exact_mod_cast n.factorial_ne_zero
  push_cast
  have h2 : (n : ℝ) + 1 ≠ 0 := by positivity
  field_simp

theorem hasSum_log {d : ℝ} (h0 : d ≠ 0) (h1 : |d| < 1) : HasSum (t2f1 1 1 2 (-d)) (Real.log (1 + d) / d) := by
  have h := (Real.hasSum_pow_div_log_of_abs_lt_one (x := -d) (by rwa [abs_neg])).div_const (-d)
  rw [sub_neg_eq_add, neg_div_neg_eq] at h
  refine h.congr_fun ?_
  intro n
  rw [t2f1_log, pow_succ]
  field_simp

/-- The series of `log(1 + d)` for small `d`. -/
theorem logAtOne_near {E : RealEnv} (ht : E.tol ≤ 29990) {d : ℝ} (h0 : d ≠ 0) (h1 : |d| ≤ 1 / 1000) :
    |Real.log (1 + d) - Fn.logAtOne (realArith E) d| ≤ (22 / 10) * (10 : ℝ) ^ (-E.tol) * |d| ∧ |d| ≤ 101 / 100 * |Real.log (1 + d)| := by
  have dp : 0 < |d| := abs_pos.2 h0
  have hd := abs_le.1 h1
  -- the quotient is close to one
  have q : |Real.log (1 + d) / d - 1| ≤ 1 / 200 := by
    have hl := Real.abs_log_sub_add_sum_range_le (x := -d) (by rw [abs_neg]; linarith) 1
    rw [sub_neg_eq_add, abs_neg] at hl
    simp only [Finset.sum_range_one, Nat.cast_zero, zero_add, pow_one, div_one] at hl
    rw [show Real.log (1 + d) / d - 1 = (-d + Real.log (1 + d)) / d by field_simp; ring, abs_div, div_le_iff₀ dp]
    refine le_trans hl ?_
    rw [div_le_iff₀ (by linarith)]
    nlinarith
  have q2 := abs_le.1 q
  have hq0 : 0 < Real.log (1 + d) / d := by linarith
  have near := (series_near ht (hyp2f1_real E 1 1 2 (-d)) (hasSum_log h0 (by linarith)) (by
      rw [t2f1_log]
      exact div_ne_zero (pow_ne_zero _ (neg_ne_zero.2 h0)) (by positivity)) (by
      rw [t2f1_log, pow_one, abs_div, abs_neg]
      norm_num
      linarith) (by
      intro i hi
      rw [t2f1_log, t2f1_log, abs_div, abs_div, abs_pow, abs_pow, abs_neg, pow_succ]
      rw [abs_of_pos (by positivity : (0 : ℝ) < (i : ℝ) + 1), abs_of_pos (by positivity : (0 : ℝ) < ((i + 1 : ℕ) : ℝ) + 1)]
      push_cast
      rw [div_div, div_le_div_iff₀ (by positivity) (by positivity)]
      have hp : 0 ≤ |d| ^ i := by positivity
      have hi0 : (0 : ℝ) ≤ i := by positivity
      have e1 : |d| ^ i * |d| * (((i : ℝ) + 1) * 1000) = |d| ^ i * ((|d| * 1000) * ((i : ℝ) + 1)) := by ring
      rw [e1]
      apply mul_le_mul_of_nonneg_left _ hp
      nlinarith) (by rw [abs_of_pos hq0]; linarith) (by rw [abs_of_pos hq0]; linarith)).1
  constructor
  · have e : Real.log (1 + d) - Fn.logAtOne (realArith E) d =
        (Real.log (1 + d) / d - Fn.hyp2f1 (realArith E) 1 1 2 (-d)) * d := by
      unfold Fn.logAtOne
      ra_simp
      field_simp
    rw [e, abs_mul]
    exact mul_le_mul_of_nonneg_right near dp.le
  · have e : |Real.log (1 + d)| = Real.log (1 + d) / d * |d| := by
      rw [← abs_of_pos hq0, ← abs_mul]
      congr 1
      field_simp
    rw [e]
    nlinarith

/-! ## Newton's iteration -/

/-- The rounds of a doubling loop: after `K` rounds the number of digits has passed the tolerance. -/
theorem digitLoop_inv (E : RealEnv) (f : ℤ → ℝ → ℝ) (P : ℕ → ℝ → Prop) (hs : ∀ k d v, P k v → P (k + 1) (f d v)) :
    ∀ (fuel k : ℕ) (d : ℤ) (v : ℝ), 0 < d → E.tol < d * 2 ^ fuel → P k v →
      ∃ K, k ≤ K ∧ E.tol < d * 2 ^ (K - k) ∧ P K (Fn.digitLoop (realArith E) f fuel d v)
  | 0, k, d, v, _, h, hp => ⟨k, le_refl _, by simpa using h, by simpa [Fn.digitLoop] using hp⟩
  | fuel + 1, k, d, v, h0, h, hp => by
    rw [Fn.digitLoop, ra_tol]
    by_cases hd : d ≤ E.tol
    · rw [if_pos hd]
      obtain ⟨K, k1, k2, k3⟩ := digitLoop_inv E f P hs fuel (k + 1) (d * 2) (f d v) (by omega)
        (by rw [pow_succ] at h; linarith) (hs k d v hp)
      refine ⟨K, by omega, ?_, k3⟩
      rw [show K - k = (K - (k + 1)) + 1 by omega, pow_succ]
      linarith
    · rw [if_neg hd]
      exact ⟨k, le_refl _, by simp; omega, hp⟩

/-- The starting estimate of the iteration is good to `10^-δ`, and the argument is no closer than that to a power of two
other than one. -/
structure LogStart (E : RealEnv) (δ : ℕ) (y : ℝ) : Prop where
  start : ∃ v, E.log0 y = some v ∧ |v - Real.log y| ≤ (10 : ℝ) ^ (-(δ : ℤ))
  apart : ∀ n : ℤ, n ≠ 0 → 1 / 50 < |Real.log y - n * Real.log 2|

theorem logNewton_near {E : RealEnv} (t0 : 10 ≤ E.tol) (ht : E.tol ≤ 29990) (hm : E.maxExp ≤ 2 ^ 62) (hm' : 10000 ≤ E.maxExp)
    {δ : ℕ} (hδ : 2 ≤ δ) {y x1 : ℝ} (hy : 0 < y) (hy2 : |Real.log y| ≤ 9009) (hs : LogStart E δ y) :
    ∃ K : ℕ, E.tol < 14 * 2 ^ K ∧
      |Fn.logNewton (realArith E) y x1 - Real.log y| ≤ (10 : ℝ) ^ (-((δ * 2 ^ K : ℕ) : ℤ)) + 6000 * (10 : ℝ) ^ (-E.tol) := by
  have tp : (0 : ℝ) < (10 : ℝ) ^ (-E.tol) := by positivity
  have tl : (10 : ℝ) ^ (-E.tol) ≤ 1 / 10000000000 := by
    have : (10 : ℝ) ^ (-E.tol) ≤ (10 : ℝ) ^ (-10 : ℤ) := zpow_le_zpow_right₀ (by norm_num) (by omega)
    refine le_trans this (by norm_num)
  obtain ⟨v0, e0, h0⟩ := hs.start
  have al : ∀ k : ℕ, (10 : ℝ) ^ (-((δ * 2 ^ k : ℕ) : ℤ)) ≤ 1 / 100 := by
    intro k
    have : 2 ≤ δ * 2 ^ k := le_trans hδ (Nat.le_mul_of_pos_right _ (by positivity))
    refine le_trans (zpow_le_zpow_right₀ (by norm_num) (show _ ≤ (-2 : ℤ) by omega)) (by norm_num)
  unfold Fn.logNewton
  ra_simp
  rw [e0, Option.getD_some]
  suffices hst : ∀ (k : ℕ) (d : ℤ) (v : ℝ), |v - Real.log y| ≤ (10 : ℝ) ^ (-((δ * 2 ^ k : ℕ) : ℤ)) + 6000 * (10 : ℝ) ^ (-E.tol) →
      |Fn.logStep (realArith E) y d v - Real.log y| ≤ (10 : ℝ) ^ (-((δ * 2 ^ (k + 1) : ℕ) : ℤ)) + 6000 * (10 : ℝ) ^ (-E.tol) by
    have h00 : |v0 - Real.log y| ≤ (10 : ℝ) ^ (-((δ * 2 ^ 0 : ℕ) : ℤ)) + 6000 * (10 : ℝ) ^ (-E.tol) := by
      rw [pow_zero, mul_one]; linarith
    obtain ⟨K, _, k2, k3⟩ := digitLoop_inv E (fun d v => Fn.logStep (realArith E) y d v)
      (fun k v => |v - Real.log y| ≤ (10 : ℝ) ^ (-((δ * 2 ^ k : ℕ) : ℤ)) + 6000 * (10 : ℝ) ^ (-E.tol)) hst 32 0 14 v0 (by norm_num)
      (by omega) h00
    exact ⟨K, k2, k3⟩
  intro k d v hv
  have ak := al k
  have ap : (0 : ℝ) < (10 : ℝ) ^ (-((δ * 2 ^ k : ℕ) : ℤ)) := by positivity
  have a2 : (10 : ℝ) ^ (-((δ * 2 ^ (k + 1) : ℕ) : ℤ)) = (10 : ℝ) ^ (-((δ * 2 ^ k : ℕ) : ℤ)) * (10 : ℝ) ^ (-((δ * 2 ^ k : ℕ) : ℤ)) := by
    rw [← zpow_add₀ (by norm_num)]
    congr 1
    push_cast
    ring
  rw [a2]
  generalize (10 : ℝ) ^ (-((δ * 2 ^ k : ℕ) : ℤ)) = a at *
  have hv1 : |v - Real.log y| ≤ 11 / 1000 := by linarith
  have hv2 := abs_le.1 hv1
  have hy3 := abs_le.1 hy2
  have he := Props.C65_exp_partial t0 ht hm (x := -v) (by rw [abs_neg, abs_le]; constructor <;> linarith) (by
    intro n hv0 hn
    by_cases n0 : n = 0
    · rw [n0] at hn; simp at hn hv0; exact hv0 hn
    · have := hs.apart (-n) (by omega)
      push_cast at this
      rw [show -(n : ℝ) * Real.log 2 = v by linarith, abs_sub_comm] at this
      linarith)
  unfold Fn.logStep
  ra_simp
  -- the exact step and the error of the exponential
  have ye : y * Real.exp (-v) = Real.exp (-(v - Real.log y)) := by
    rw [show -(v - Real.log y) = Real.log y + -v by ring, Real.exp_add, Real.exp_log hy]
  generalize Fn.exp (realArith E) (-v) = w at *
  have hw : |y * Real.exp (-v) - y * w| ≤ 4700 * (10 : ℝ) ^ (-E.tol) * (y * Real.exp (-v)) := by
    rw [← mul_sub, abs_mul, abs_of_pos hy]
    nlinarith
  rw [ye] at hw
  generalize hε : v - Real.log y = ε at *
  have q := Real.abs_exp_sub_one_sub_id_le (x := -ε) (by rw [abs_neg]; linarith)
  have q2 := abs_le.1 q
  have e1 : Real.exp (-ε) ≤ 102 / 100 := by nlinarith
  have hw2 : |Real.exp (-ε) - y * w| ≤ 4800 * (10 : ℝ) ^ (-E.tol) := by nlinarith
  rw [show v + (y * w - 1) - Real.log y = (Real.exp (-ε) - 1 - -ε) - (Real.exp (-ε) - y * w) by rw [← hε]; ring]
  refine le_trans (abs_sub _ _) ?_
  have sq : (-ε) ^ 2 ≤ (a + 6000 * (10 : ℝ) ^ (-E.tol)) ^ 2 := by
    rw [neg_sq, ← sq_abs]
    exact pow_le_pow_left₀ (abs_nonneg _) hv 2
  generalize (10 : ℝ) ^ (-E.tol) = T at *
  nlinarith

theorem log10_le : Real.log 10 ≤ 9 := by
  have := Real.log_le_sub_one_of_pos (x := 10) (by norm_num)
  linarith

theorem abs_log_le {y : ℝ} (hy : 0 < y) (h1 : ordR y ≤ 1000) (h2 : -1000 ≤ ordR y) : |Real.log y| ≤ 9009 := by
  have l0 : 0 < Real.log 10 := Real.log_pos (by norm_num)
  have l9 := log10_le
  have u := lt_ordR hy.ne'
  have l := ordR_le hy.ne'
  rw [abs_of_pos hy] at u l
  have u1 := Real.log_le_log hy u.le
  have l1 := Real.log_le_log (by positivity) l
  rw [Real.log_zpow] at u1 l1
  have c1 : ((ordR y : ℤ) : ℝ) ≤ 1000 := by exact_mod_cast h1
  have c2 : (-1000 : ℝ) ≤ ((ordR y : ℤ) : ℝ) := by exact_mod_cast h2
  push_cast at u1
  rw [abs_le]
  constructor <;> nlinarith

/-- The number whose logarithm the iteration computes: the argument, brought to `10^8` or `10^-8` if its order is beyond
1000. -/
noncomputable def newtonArg (x : ℝ) : ℝ :=
  if 1000 < ordR x then x / (10 : ℝ) ^ (ordR x - 8) else if ordR x < -1000 then x * (10 : ℝ) ^ (-ordR x - 8) else x

theorem ordR_eq {x : ℝ} (hx : 0 < x) {k : ℤ} (h1 : (10 : ℝ) ^ k ≤ x) (h2 : x < (10 : ℝ) ^ (k + 1)) : ordR x = k := by
  have a : ordR x < k + 1 := (ordR_lt hx.ne').2 (by rw [abs_of_pos hx]; exact h2)
  have b : ¬ordR x < k := by rw [ordR_lt hx.ne', abs_of_pos hx]; exact not_lt.2 h1
  omega

theorem ordR_scale {x : ℝ} (hx : 0 < x) (k : ℤ) : ordR (x * (10 : ℝ) ^ k) = ordR x + k := by
  have l := ordR_le hx.ne'
  have u := lt_ordR hx.ne'
  rw [abs_of_pos hx] at l u
  have kp : (0 : ℝ) < (10 : ℝ) ^ k := by positivity
  apply ordR_eq (by positivity)
  · rw [zpow_add₀ (by norm_num)]
    exact mul_le_mul_of_nonneg_right l kp.le
  · rw [show ordR x + k + 1 = (ordR x + 1) + k by ring, zpow_add₀ (by norm_num) (ordR x + 1)]
    exact mul_lt_mul_of_pos_right u kp

end EFX

namespace EFX.Props
open EFX

/-- C66 in exact arithmetic.  Within `10^-max(tolerance/10, 6)` of one the relative error is at most `3 * 10^-tolerance`.
Elsewhere, if the starting estimate is good to `10^-δ`, the absolute error is at most
`10^(-δ * 2^K) + 6000 * 10^-tolerance`, where the number `K` of rounds is such that `14 * 2^K > tolerance`.  Excluded are
arguments (after removal of powers of ten) within about 2 percent of a power of two other than one, because of
`C65_ln2_refuted`. -/
theorem C66_log_partial {E : RealEnv} (t0 : 10 ≤ E.tol) (ht : E.tol ≤ 29990) (hm : E.maxExp ≤ 2 ^ 62) (hm' : 10000 ≤ E.maxExp)
    {x : ℝ} (hx : 0 < x) :
    (x ≠ 1 → |1 - x| < (10 : ℝ) ^ (-max (E.tol / 10) 6) →
      |Real.log x - Fn.log (realArith E) x| ≤ 3 * (10 : ℝ) ^ (-E.tol) * |Real.log x|) ∧
    ((x = 1 ∨ (10 : ℝ) ^ (-max (E.tol / 10) 6) ≤ |1 - x|) → ∀ δ, 2 ≤ δ → LogStart E δ (newtonArg x) → ∃ K : ℕ, E.tol < 14 * 2 ^ K ∧
      |Real.log x - Fn.log (realArith E) x| ≤ (10 : ℝ) ^ (-((δ * 2 ^ K : ℕ) : ℤ)) + 6000 * (10 : ℝ) ^ (-E.tol)) := by
  have tp : (0 : ℝ) < (10 : ℝ) ^ (-E.tol) := by positivity
  have hl := le_max_right (E.tol / 10) 6
  have unf : Fn.log (realArith E) x = if ordR |1 - x| < -max (E.tol / 10) 6 then Fn.logAtOne (realArith E) (x - 1) else
      if ordR x > 1000 ∨ ordR x < -1000 then Fn.logNewton (realArith E)
          (if (!decide (ordR x < 0)) = true then x / (10 : ℝ) ^ ((if (!decide (ordR x < 0)) = true then ordR x else -ordR x) - 8)
            else x * (10 : ℝ) ^ ((if (!decide (ordR x < 0)) = true then ordR x else -ordR x) - 8)) (x - 1) +
        (if decide (ordR x < 0) = true then -(Real.log 10 * (((if (!decide (ordR x < 0)) = true then ordR x else -ordR x) - 8 : ℤ) : ℝ))
          else Real.log 10 * (((if (!decide (ordR x < 0)) = true then ordR x else -ordR x) - 8 : ℤ) : ℝ))
      else Fn.logNewton (realArith E) x (x - 1) := by
    unfold Fn.log
    simp only [Bool.or_eq_true]
    ra_simp
    rw [if_neg (by simp [not_lt.2 hx.le]), if_neg hx.ne', if_neg (by simp)]
  rw [unf]
  constructor
  · intro x1 hn
    have d0 : x - 1 ≠ 0 := sub_ne_zero.2 x1
    have a0 : |1 - x| ≠ 0 := abs_ne_zero.2 (fun h => d0 (by linarith))
    rw [if_pos ((ordR_lt a0).2 (by rwa [abs_abs]))]
    have d3 : |x - 1| ≤ 1 / 1000 := by
      rw [abs_sub_comm]
      refine le_trans hn.le (le_trans (zpow_le_zpow_right₀ (by norm_num) (show _ ≤ (-3 : ℤ) by omega)) (by norm_num))
    have h := logAtOne_near ht d0 d3
    rw [show 1 + (x - 1) = x by ring] at h
    refine le_trans h.1 ?_
    have h5 := mul_le_mul_of_nonneg_left h.2 (by positivity : 0 ≤ 22 / 10 * (10 : ℝ) ^ (-E.tol))
    have h6 : 0 ≤ (10 : ℝ) ^ (-E.tol) * |Real.log x| := by positivity
    linarith
  · intro hn δ hδ hs
    have notnear : ¬ordR |1 - x| < -max (E.tol / 10) 6 := by
      rcases hn with h | h
      · rw [h, sub_self, abs_zero, ordR_zero]; omega
      · have a0 : |1 - x| ≠ 0 := by
          intro h0
          rw [h0] at h
          have : (0 : ℝ) < (10 : ℝ) ^ (-max (E.tol / 10) 6) := by positivity
          linarith
        rw [ordR_lt a0, abs_abs]
        exact not_lt.2 h
    rw [if_neg notnear]
    unfold newtonArg at hs
    by_cases h1 : 1000 < ordR x
    · rw [if_pos (Or.inl h1)]
      rw [if_pos h1] at hs
      rw [show decide (ordR x < 0) = false by simp; omega]
      simp only [Bool.not_false, if_true, Bool.false_eq_true, if_false]
      have yp : 0 < x / (10 : ℝ) ^ (ordR x - 8) := by positivity
      have oy : ordR (x / (10 : ℝ) ^ (ordR x - 8)) = 8 := by
        rw [div_eq_mul_inv, ← zpow_neg, ordR_scale hx]; ring
      obtain ⟨K, k1, k2⟩ := logNewton_near (x1 := x - 1) t0 ht hm hm' hδ yp (abs_log_le yp (by omega) (by omega)) hs
      refine ⟨K, k1, ?_⟩
      have el : Real.log x = Real.log (x / (10 : ℝ) ^ (ordR x - 8)) + Real.log 10 * ((ordR x - 8 : ℤ) : ℝ) := by
        rw [Real.log_div hx.ne' (by positivity), Real.log_zpow]; ring
      rw [abs_sub_comm, el]
      rw [show ∀ a b c : ℝ, a + b - (c + b) = a - c by intros; ring]
      exact k2
    · by_cases h2 : ordR x < -1000
      · rw [if_pos (Or.inr h2)]
        rw [if_neg h1, if_pos h2] at hs
        rw [show decide (ordR x < 0) = true by simp; omega]
        simp only [Bool.not_true, if_true, Bool.false_eq_true, if_false]
        have yp : 0 < x * (10 : ℝ) ^ (-ordR x - 8) := by positivity
        have oy : ordR (x * (10 : ℝ) ^ (-ordR x - 8)) = -8 := by
          rw [ordR_scale hx]; ring
        obtain ⟨K, k1, k2⟩ := logNewton_near (x1 := x - 1) t0 ht hm hm' hδ yp (abs_log_le yp (by omega) (by omega)) hs
        refine ⟨K, k1, ?_⟩
        have el : Real.log x = Real.log (x * (10 : ℝ) ^ (-ordR x - 8)) + -(Real.log 10 * ((-ordR x - 8 : ℤ) : ℝ)) := by
          rw [Real.log_mul hx.ne' (by positivity), Real.log_zpow]; ring
        rw [abs_sub_comm, el]
        rw [show ∀ a b c : ℝ, a + b - (c + b) = a - c by intros; ring]
        exact k2
      · rw [if_neg (by omega)]
        rw [if_neg h1, if_neg h2] at hs
        obtain ⟨K, k1, k2⟩ := logNewton_near (x1 := x - 1) t0 ht hm hm' hδ hx (abs_log_le hx (by omega) (by omega)) hs
        exact ⟨K, k1, by rw [abs_sub_comm]; exact k2⟩

/-- With a starting estimate good to 14 digits the error is at most `6001 * 10^-tolerance`. -/
theorem C66_log14_partial {E : RealEnv} (t0 : 10 ≤ E.tol) (ht : E.tol ≤ 29990) (hm : E.maxExp ≤ 2 ^ 62) (hm' : 10000 ≤ E.maxExp)
    {x : ℝ} (hx : 0 < x) (hn : x = 1 ∨ (10 : ℝ) ^ (-max (E.tol / 10) 6) ≤ |1 - x|) (hs : LogStart E 14 (newtonArg x)) :
    |Real.log x - Fn.log (realArith E) x| ≤ 6001 * (10 : ℝ) ^ (-E.tol) := by
  obtain ⟨K, k1, k2⟩ := (C66_log_partial t0 ht hm hm' hx).2 hn 14 (by norm_num) hs
  refine le_trans k2 ?_
  have : (10 : ℝ) ^ (-((14 * 2 ^ K : ℕ) : ℤ)) ≤ (10 : ℝ) ^ (-E.tol) := by
    apply zpow_le_zpow_right₀ (by norm_num)
    push_cast
    omega
  linarith

/-- The hypotheses hold for `x = 3` at 101 digits (tolerance 112) with any estimate of 14 digits. -/
example (E : RealEnv) (h : E.tol = 112) (hm : E.maxExp = 4944763836) (v : ℝ) (h0 : E.log0 3 = some v)
    (h1 : |v - Real.log 3| ≤ (10 : ℝ) ^ (-(14 : ℤ))) : |Real.log 3 - Fn.log (realArith E) 3| ≤ 6001 * (10 : ℝ) ^ (-112 : ℤ) := by
  have o3 : ordR 3 = 0 := ordR_eq (by norm_num) (by norm_num) (by norm_num)
  have na : newtonArg 3 = 3 := by unfold newtonArg; rw [o3]; norm_num
  have l2 := Real.log_two_gt_d9
  have l2' := Real.log_two_lt_d9
  have l3 : (103 / 100 : ℝ) ≤ Real.log 3 := by
    have h4 : 3 * Real.log 2 ≤ 2 * Real.log 3 := by
      rw [show 3 * Real.log 2 = Real.log (2 ^ 3) by rw [Real.log_pow]; norm_num,
        show 2 * Real.log 3 = Real.log (3 ^ 2) by rw [Real.log_pow]; norm_num]
      exact Real.log_le_log (by norm_num) (by norm_num)
    linarith
  have l3' : Real.log 3 ≤ 13 / 10 := by
    have h4 : 5 * Real.log 3 ≤ 9 * Real.log 2 := by
      rw [show 9 * Real.log 2 = Real.log (2 ^ 9) by rw [Real.log_pow]; norm_num,
        show 5 * Real.log 3 = Real.log (3 ^ 5) by rw [Real.log_pow]; norm_num]
      exact Real.log_le_log (by norm_num) (by norm_num)
    linarith
  have hs : LogStart E 14 3 := ⟨⟨v, h0, h1⟩, by
    intro n _
    rw [lt_abs]
    rcases le_or_gt n 1 with hn | hn
    · left
      have : (n : ℝ) ≤ 1 := by exact_mod_cast hn
      nlinarith
    · right
      have : (2 : ℝ) ≤ n := by exact_mod_cast hn
      nlinarith⟩
  have := C66_log14_partial (E := E) (x := 3) (by omega) (by omega) (by rw [hm]; norm_num) (by rw [hm]; norm_num) (by norm_num)
    (Or.inr (by
      refine le_trans (zpow_le_zpow_right₀ (by norm_num) (show _ ≤ (0 : ℤ) by omega)) (by norm_num))) (by rw [na]; exact hs)
  rwa [h] at this

end EFX.Props
