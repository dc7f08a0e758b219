import Mathlib.Analysis.SpecialFunctions.Trigonometric.Series
import Mathlib.Analysis.SpecialFunctions.Trigonometric.Bounds
import Verif.Lemmas.RealHyp
/-! Sine and cosine in exact arithmetic. -/

namespace EFX
open Finset

theorem t0f1_succ (b x : ℝ) (n : ℕ) : t0f1 b x (n + 1) = t0f1 b x n * (x / ((n + 1) * (b + n))) := by
  unfold t0f1
  rw [← xn_step, poch_succ]
  push_cast
  rw [div_mul_div_comm, div_div]
  congr 1
  ring

theorem t0f1_ratio {b x : ℝ} (hb : 1 / 2 ≤ b) {n : ℕ} (hn : 1 ≤ n) : |t0f1 b x (n + 1)| ≤ |t0f1 b x n| * (|x| / 3) := by
  rw [t0f1_succ, abs_mul, abs_div]
  apply mul_le_mul_of_nonneg_left _ (abs_nonneg _)
  have h1 : (1 : ℝ) ≤ n := by exact_mod_cast hn
  have h2 : (3 : ℝ) ≤ |((n : ℝ) + 1) * (b + n)| := by
    rw [abs_of_pos (by positivity)]
    nlinarith
  exact div_le_div_of_nonneg_left (abs_nonneg _) (by norm_num) h2

theorem t0f1_one (b x : ℝ) : t0f1 b x 1 = x / b := by
  unfold t0f1; rw [xn_one, poch_one]

theorem t0f1_bound {b x : ℝ} (hb : 1 / 2 ≤ b) (n : ℕ) : |t0f1 b x (n + 1)| ≤ 2 * |x| ^ (n + 1) := by
  induction n with
  | zero =>
    rw [zero_add, t0f1_one, abs_div, pow_one, abs_of_pos (by linarith : (0 : ℝ) < b), div_le_iff₀ (by linarith)]
    nlinarith [abs_nonneg x]
  | succ n ih =>
    refine le_trans (t0f1_ratio hb (by omega)) ?_
    rw [pow_succ |x| (n + 1)]
    have : 0 ≤ |x| ^ (n + 1) * |x| := by positivity
    calc |t0f1 b x (n + 1)| * (|x| / 3) ≤ (2 * |x| ^ (n + 1)) * (|x| / 3) := mul_le_mul_of_nonneg_right ih (by positivity)
      _ ≤ 2 * (|x| ^ (n + 1) * |x|) := by nlinarith

theorem t0f1_ne {b x : ℝ} (hb : 0 < b) (hx : x ≠ 0) (n : ℕ) : t0f1 b x n ≠ 0 := by
  unfold t0f1 xn
  have h1 : (n.factorial : ℝ) ≠ 0 := by exact_mod_cast n.factorial_ne_zero
  have h2 : poch b n ≠ 0 := by
    unfold poch
    rw [Finset.prod_ne_zero_iff]
    intro i _
    positivity
  have h3 : x ^ n ≠ 0 := pow_ne_zero _ hx
  exact div_ne_zero (div_ne_zero h3 h1) h2

/-- A series `0F1` of a small argument is summed to relative accuracy `2 * 10^-tolerance`. -/
theorem hyp0f1_near {E : RealEnv} (ht : E.tol ≤ 59990) {b x L : ℝ} (hb : 1 / 2 ≤ b) (hx : x ≠ 0)
    (hx6 : |x| ≤ 1 / 1000000) (hL : HasSum (t0f1 b x) L) (hL1 : 99 / 100 ≤ |L|) (hL2 : |L| ≤ 101 / 100) :
    |L - Fn.hyp0f1 (realArith E) b x| ≤ (205 / 100) * (10 : ℝ) ^ (-E.tol) ∧
    |L - Fn.hyp0f1 (realArith E) b x| ≤ 1 / 100 := by
  have hr : ∀ i, 1 ≤ i → |t0f1 b x (i + 1)| ≤ |t0f1 b x i| / 2 := by
    intro i hi
    refine le_trans (t0f1_ratio hb hi) ?_
    nlinarith [abs_nonneg (t0f1 b x i)]
  have tail : ∀ m, 1 ≤ m → |L - psum (t0f1 b x) m| ≤ 2 * |t0f1 b x m| := fun m hm =>
    tail_le hL (fun i hi => hr i (by omega))
  have small : ∀ m, 1 ≤ m → |t0f1 b x m| ≤ 2 * (1 / 1000000) ^ m := by
    intro m hm
    obtain ⟨k, rfl⟩ : ∃ k, m = k + 1 := ⟨m - 1, by omega⟩
    refine le_trans (t0f1_bound hb k) ?_
    have := pow_le_pow_left₀ (abs_nonneg x) hx6 (k + 1)
    linarith
  have small1 : ∀ m, 1 ≤ m → |t0f1 b x m| ≤ 2 / 1000000 := by
    intro m hm
    refine le_trans (small m hm) ?_
    obtain ⟨k, rfl⟩ : ∃ k, m = k + 1 := ⟨m - 1, by omega⟩
    rw [pow_succ]
    have : ((1 : ℝ) / 1000000) ^ k ≤ 1 := pow_le_one₀ (by norm_num) (by norm_num)
    nlinarith
  have near : ∀ m, 1 ≤ m → |L - psum (t0f1 b x) m| ≤ 4 / 1000000 := by
    intro m hm
    have := tail m hm
    have := small1 m hm
    linarith
  have lower : ∀ m, 1 ≤ m → 98 / 100 ≤ |psum (t0f1 b x) m| := by
    intro m hm
    have h1 := near m hm
    have h2 := abs_sub_abs_le_abs_sub L (psum (t0f1 b x) m)
    linarith
  have upper : ∀ m, 1 ≤ m → |psum (t0f1 b x) m| ≤ 102 / 100 := by
    intro m hm
    have h1 := near m hm
    rw [abs_sub_comm] at h1
    have h2 := abs_sub_abs_le_abs_sub (psum (t0f1 b x) m) L
    linarith
  obtain ⟨m, m1, m2, m3⟩ := (hyp0f1_real E b x).conv ⟨9999, by norm_num, by norm_num, by
    refine stops_of (t0f1_ne (by linarith) hx _) ?_ (by have := lower 9999 (by norm_num); linarith)
    refine lt_of_le_of_lt (small 9999 (by norm_num)) ?_
    have h1 : ((1 : ℝ) / 1000000) ^ 9999 = (10 : ℝ) ^ (-59994 : ℤ) := by
      rw [show ((1 : ℝ) / 1000000) = (10 : ℝ) ^ (-6 : ℤ) by norm_num, ← zpow_natCast, ← zpow_mul]
      norm_num
    rw [h1]
    have h2 : (10 : ℝ) ^ (-59993 : ℤ) ≤ (10 : ℝ) ^ (-(E.tol + 1)) := zpow_le_zpow_right₀ (by norm_num) (by omega)
    have h3 : (10 : ℝ) ^ (-59993 : ℤ) = (10 : ℝ) ^ (-59994 : ℤ) * 10 := by
      rw [show (-59993 : ℤ) = -59994 + 1 by norm_num, zpow_add₀ (by norm_num), zpow_one]
    have h4 : (0 : ℝ) < (10 : ℝ) ^ (-59994 : ℤ) := by positivity
    generalize (10 : ℝ) ^ (-59994 : ℤ) = w at *
    linarith⟩
  rw [m3]
  constructor
  · have h1 := tail m (by omega)
    have h0 : psum (t0f1 b x) m ≠ 0 := by
      intro h
      have := lower m (by omega)
      rw [h, abs_zero] at this
      norm_num at this
    have h2 := stops_le h0 m2
    have h3 := upper m (by omega)
    have h4 : (0 : ℝ) < (10 : ℝ) ^ (-E.tol) := by positivity
    nlinarith
  · have := near m (by omega)
    linarith

theorem poch_three_half (n : ℕ) : poch (3 / 2) n * n.factorial * 4 ^ n = ((2 * n + 1).factorial : ℝ) := by
  induction n with
  | zero => simp [poch_zero]
  | succ n ih =>
    rw [poch_succ, show 2 * (n + 1) + 1 = (2 * n + 1) + 1 + 1 by ring, Nat.factorial_succ, Nat.factorial_succ, Nat.factorial_succ]
    push_cast
    rw [← ih]
    ring

theorem poch_half (n : ℕ) : poch (1 / 2) n * n.factorial * 4 ^ n = ((2 * n).factorial : ℝ) := by
  induction n with
  | zero => simp [poch_zero]
  | succ n ih =>
    rw [poch_succ, show 2 * (n + 1) = (2 * n) + 1 + 1 by ring, Nat.factorial_succ, Nat.factorial_succ, Nat.factorial_succ]
    push_cast
    rw [← ih]
    ring

theorem hasSum_sinc {y : ℝ} (hy : y ≠ 0) : HasSum (t0f1 (3 / 2) (-(y * y) / 4)) (Real.sin y / y) := by
  have h := (Real.hasSum_sin y).div_const y
  refine h.congr_fun ?_
  intro n
  unfold t0f1 xn
  rw [← poch_three_half]
  have h1 : (n.factorial : ℝ) ≠ 0 := by exact_mod_cast n.factorial_ne_zero
  have h2 : poch (3 / 2) n ≠ 0 := by
    unfold poch
    rw [Finset.prod_ne_zero_iff]
    intro i _
    positivity
  rw [div_pow, neg_eq_neg_one_mul, mul_pow, show (2 * n + 1) = n + n + 1 by ring, pow_succ, pow_add, mul_pow]
  field_simp

theorem hasSum_cosc (y : ℝ) : HasSum (t0f1 (1 / 2) (-(y * y) / 4)) (Real.cos y) := by
  have h := Real.hasSum_cos y
  refine h.congr_fun ?_
  intro n
  unfold t0f1 xn
  rw [← poch_half]
  have h1 : (n.factorial : ℝ) ≠ 0 := by exact_mod_cast n.factorial_ne_zero
  have h2 : poch (1 / 2) n ≠ 0 := by
    unfold poch
    rw [Finset.prod_ne_zero_iff]
    intro i _
    positivity
  rw [div_pow, neg_eq_neg_one_mul, mul_pow, show (2 * n) = n + n by ring, pow_add, mul_pow]
  field_simp

end EFX
