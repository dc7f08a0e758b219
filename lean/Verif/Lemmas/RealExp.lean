import Mathlib.Analysis.SpecialFunctions.Exp
import Mathlib.Analysis.Normed.Algebra.Exponential
import Mathlib.Analysis.SpecialFunctions.Exponential
import Mathlib.Analysis.Complex.ExponentialBounds
import Verif.Lemmas.RealHyp
import Verif.Lemmas.RealArith
import Verif.Props.Util
/-! The exponential function in exact arithmetic. -/

namespace EFX
open Finset

/-- A series whose terms fall by a factor of 1000 is summed to an error of `2.2 * 10^-tolerance`. -/
theorem series_near {E : RealEnv} (ht : E.tol ≤ 29990) {t : ℕ → ℝ} {r L : ℝ} (hs : SeriesOf E t r) (hL : HasSum t L)
    (ne : t 9999 ≠ 0) (h1 : |t 1| ≤ 2 / 1000) (hr : ∀ i, 1 ≤ i → |t (i + 1)| ≤ |t i| / 1000)
    (hL1 : 97 / 100 ≤ |L|) (hL2 : |L| ≤ 103 / 100) :
    |L - r| ≤ (22 / 10) * (10 : ℝ) ^ (-E.tol) ∧ |L - r| ≤ 4 / 1000 := by
  have tail : ∀ m, 1 ≤ m → |L - psum t m| ≤ 2 * |t m| := fun m hm =>
    tail_le hL (fun i hi => by
      have := hr i (by omega)
      have := abs_nonneg (t i)
      linarith)
  have small : ∀ m, |t (m + 1)| ≤ 2 * (1 / 1000) ^ (m + 1) := by
    intro m
    induction m with
    | zero => norm_num at h1 ⊢; exact h1
    | succ m ih =>
      have := hr (m + 1) (by omega)
      rw [pow_succ]
      linarith
  have small1 : ∀ m, 1 ≤ m → |t m| ≤ 2 / 1000 := by
    intro m hm
    obtain ⟨k, rfl⟩ : ∃ k, m = k + 1 := ⟨m - 1, by omega⟩
    refine le_trans (small k) ?_
    rw [pow_succ]
    have : ((1 : ℝ) / 1000) ^ k ≤ 1 := pow_le_one₀ (by norm_num) (by norm_num)
    linarith
  have near : ∀ m, 1 ≤ m → |L - psum t m| ≤ 4 / 1000 := by
    intro m hm
    have := tail m hm
    have := small1 m hm
    linarith
  have lower : ∀ m, 1 ≤ m → 96 / 100 ≤ |psum t m| := by
    intro m hm
    have h1 := near m hm
    have h2 := abs_sub_abs_le_abs_sub L (psum t m)
    linarith
  have upper : ∀ m, 1 ≤ m → |psum t m| ≤ 104 / 100 := by
    intro m hm
    have h1 := near m hm
    rw [abs_sub_comm] at h1
    have h2 := abs_sub_abs_le_abs_sub (psum t m) L
    linarith
  obtain ⟨m, m1, m2, m3⟩ := hs.conv ⟨9999, by norm_num, by norm_num, by
    refine stops_of ne ?_ (by have := lower 9999 (by norm_num); linarith)
    refine lt_of_le_of_lt (small 9998) ?_
    have h1 : ((1 : ℝ) / 1000) ^ (9998 + 1) = (10 : ℝ) ^ (-29997 : ℤ) := by
      rw [show ((1 : ℝ) / 1000) = (10 : ℝ) ^ (-3 : ℤ) by norm_num, ← zpow_natCast, ← zpow_mul]
      norm_num
    rw [h1]
    have h2 : (10 : ℝ) ^ (-29996 : ℤ) ≤ (10 : ℝ) ^ (-(E.tol + 1)) := zpow_le_zpow_right₀ (by norm_num) (by omega)
    have h3 : (10 : ℝ) ^ (-29996 : ℤ) = (10 : ℝ) ^ (-29997 : ℤ) * 10 := by
      rw [show (-29996 : ℤ) = -29997 + 1 by norm_num, zpow_add₀ (by norm_num), zpow_one]
    have h4 : (0 : ℝ) < (10 : ℝ) ^ (-29997 : ℤ) := by positivity
    generalize (10 : ℝ) ^ (-29997 : ℤ) = w at *
    linarith⟩
  rw [m3]
  refine ⟨?_, near m (by omega)⟩
  have h1 := tail m (by omega)
  have h0 : psum t m ≠ 0 := by
    intro h
    have := lower m (by omega)
    rw [h, abs_zero] at this
    norm_num at this
  have h2 := stops_le h0 m2
  have h3 := upper m (by omega)
  have h4 : (0 : ℝ) < (10 : ℝ) ^ (-E.tol) := by positivity
  nlinarith

theorem hasSum_exp (x : ℝ) : HasSum (t0f0 x) (Real.exp x) := by
  have := NormedSpace.expSeries_div_hasSum_exp (𝔸 := ℝ) x
  rw [← congr_fun Real.exp_eq_exp_ℝ x] at this
  exact this

/-- `0F0` of a small positive number is its exponential. -/
theorem hyp0f0_near {E : RealEnv} (ht : E.tol ≤ 29990) {z : ℝ} (h0 : 0 < z) (h1 : z ≤ 1 / 1000) :
    |Real.exp z - Fn.hyp0f0 (realArith E) z| ≤ (22 / 10) * (10 : ℝ) ^ (-E.tol) ∧
    |Real.exp z - Fn.hyp0f0 (realArith E) z| ≤ 4 / 1000 := by
  apply series_near ht (hyp0f0_real E z) (hasSum_exp z)
  · unfold t0f0 xn
    have : ((Nat.factorial 9999 : ℕ) : ℝ) ≠ 0 := by exact_mod_cast Nat.factorial_ne_zero _
    exact div_ne_zero (pow_ne_zero _ h0.ne') this
  · unfold t0f0; rw [xn_one, abs_of_pos h0]; linarith
  · intro i hi
    unfold t0f0
    rw [← xn_step, abs_div, abs_mul, abs_of_pos h0]
    have hp : (1 : ℝ) ≤ |(((i + 1 : ℕ) : ℤ) : ℝ)| := by
      rw [abs_of_nonneg (by positivity)]
      push_cast
      have : (0 : ℝ) ≤ i := by positivity
      linarith
    refine le_trans (div_le_self (by positivity) hp) ?_
    nlinarith [abs_nonneg (xn z i)]
  · rw [abs_of_pos (Real.exp_pos z)]
    have := Real.add_one_le_exp z
    linarith
  · rw [abs_of_pos (Real.exp_pos z)]
    have := Real.abs_exp_sub_one_le (x := z) (by rw [abs_of_pos h0]; linarith)
    rw [abs_of_pos h0] at this
    have := (abs_le.1 this).2
    linarith

/-- Powers multiply a relative error by little more than the exponent. -/
theorem pow_near {a b ε : ℝ} (ha : 0 < a) (h : |a - b| ≤ ε * a) (hε : 0 ≤ ε) :
    ∀ n : ℕ, n * ε ≤ 1 / 100 → |a ^ n - b ^ n| ≤ (102 / 100) * (n * ε) * a ^ n := by
  intro n
  induction n with
  | zero => intro _; simp
  | succ n ih =>
    intro hn
    push_cast at hn ⊢
    have hn' : n * ε ≤ 1 / 100 := by linarith
    have i1 := ih hn'
    have an : 0 < a ^ n := by positivity
    have hb : |b| ≤ a * (1 + ε) := by
      have := abs_sub_abs_le_abs_sub b a
      rw [abs_sub_comm b a, abs_of_pos ha] at this
      linarith
    rw [pow_succ, pow_succ, show a ^ n * a - b ^ n * b = a ^ n * (a - b) + (a ^ n - b ^ n) * b by ring]
    refine le_trans (abs_add_le _ _) ?_
    rw [abs_mul, abs_mul, abs_of_pos an]
    have e1 : a ^ n * |a - b| ≤ a ^ n * (ε * a) := mul_le_mul_of_nonneg_left h an.le
    have e2 : |a ^ n - b ^ n| * |b| ≤ (102 / 100) * (n * ε) * a ^ n * (a * (1 + ε)) := by
      apply mul_le_mul i1 hb (abs_nonneg _) (by positivity)
    have e3 : a ^ n * (ε * a) + 102 / 100 * (n * ε) * a ^ n * (a * (1 + ε)) =
      (a ^ n * a) * (ε + 102 / 100 * (n * ε) * (1 + ε)) := by ring
    have e4 : ε + 102 / 100 * (n * ε) * (1 + ε) ≤ 102 / 100 * ((n + 1) * ε) := by
      have : 102 / 100 * (n * ε) * ε ≤ 102 / 100 * (1 / 100) * ε := by
        apply mul_le_mul_of_nonneg_right _ hε
        linarith
      nlinarith
    have e5 : 0 < a ^ n * a := by positivity
    nlinarith [mul_le_mul_of_nonneg_left e4 e5.le]

theorem ra_pown (E : RealEnv) (x : ℝ) {p : ℤ} (hp : -2 ^ 63 < p) : Fn.pown (realArith E) x p = x ^ p := by
  have h := (Props.C36_field_partial x p hp).1
  unfold Fn.pown
  rw [ra_one]
  rw [show EFX.pown (1 : ℝ) (realArith E).mul (realArith E).div x p = EFX.pown 1 (· * ·) (· / ·) x p from rfl, h]
  rfl

theorem ra_powI (E : RealEnv) (x : ℝ) {p : ℤ} (hp : -2 ^ 63 < p) : Fn.powI (realArith E) x p = x ^ p := by
  have h := (Props.C36_field_partial x p hp).2
  unfold Fn.powI
  rw [ra_one]
  rw [show EFX.powInt (1 : ℝ) (realArith E).mul (fun x => (realArith E).div 1 x) x p = EFX.powInt 1 (· * ·) (1 / ·) x p from rfl, h]
  rfl

theorem ra_pow2 (E : RealEnv) {p : ℤ} (hp : -2 ^ 63 < p) (hp2 : p < 2 ^ 63) : Fn.pow2 (realArith E) p = 2 ^ p := by
  unfold Fn.pow2
  ra_simp
  by_cases h1 : p < -1
  · rw [if_pos h1, ra_powI E _ (by omega), one_div, inv_zpow, zpow_neg, inv_inv]
  rw [if_neg h1]
  by_cases h2 : p = -1
  · rw [if_pos h2, h2]; norm_num
  rw [if_neg h2]
  by_cases h3 : p = 0
  · rw [if_pos h3, h3]; norm_num
  rw [if_neg h3]
  by_cases h4 : p = 1
  · rw [if_pos h4, h4]; norm_num
  rw [if_neg h4, ra_powI E _ (by omega)]

end EFX
