import Mathlib.Analysis.SpecialFunctions.Complex.Arctan
import Mathlib.Analysis.SpecialFunctions.Log.Deriv
import Mathlib.Analysis.SpecialFunctions.Trigonometric.Arctan
import Mathlib.Analysis.SpecificLimits.Basic
/-!
# Fixed-point bounds for constants

Sums of floors that enclose the values of `log 2`, `log 10`, `pi` and `e`; the sums are evaluated by the kernel.
-/

namespace EFX
open Finset

/-- Sum over `k < K` of the floors of `F / ((d k + a) q^(d k + a))`. -/
def fixSum (F q d a : ℕ) : ℕ → ℕ
  | 0 => 0
  | k + 1 => fixSum F q d a k + F / ((d * k + a) * q ^ (d * k + a))

theorem fixSum_le (F q d a K : ℕ) (ha : 1 ≤ a) (hq : 2 ≤ q) :
    (fixSum F q d a K : ℝ) ≤ F * ∑ k ∈ range K, 1 / (((d * k + a : ℕ) : ℝ) * (q : ℝ) ^ (d * k + a)) ∧
    F * ∑ k ∈ range K, 1 / (((d * k + a : ℕ) : ℝ) * (q : ℝ) ^ (d * k + a)) ≤ fixSum F q d a K + K := by
  induction K with
  | zero => simp [fixSum]
  | succ K ih =>
    rw [sum_range_succ, mul_add, fixSum]
    have hp : 0 < (d * K + a) * q ^ (d * K + a) := by positivity
    have h1 : ((F / ((d * K + a) * q ^ (d * K + a)) : ℕ) : ℝ) ≤ F * (1 / (((d * K + a : ℕ) : ℝ) * (q : ℝ) ^ (d * K + a))) := by
      have := Nat.cast_div_le (α := ℝ) (m := F) (n := (d * K + a) * q ^ (d * K + a))
      push_cast at this ⊢
      rw [mul_one_div]; exact this
    have h2 : F * (1 / (((d * K + a : ℕ) : ℝ) * (q : ℝ) ^ (d * K + a))) ≤ ((F / ((d * K + a) * q ^ (d * K + a)) : ℕ) : ℝ) + 1 := by
      have h3 := Nat.lt_div_mul_add (a := F) hp
      have h4 : (F : ℝ) ≤ ((F / ((d * K + a) * q ^ (d * K + a)) : ℕ) : ℝ) * (((d * K + a : ℕ) : ℝ) * (q : ℝ) ^ (d * K + a)) +
          (((d * K + a : ℕ) : ℝ) * (q : ℝ) ^ (d * K + a)) := by exact_mod_cast h3.le
      have hp' : (0 : ℝ) < ((d * K + a : ℕ) : ℝ) * (q : ℝ) ^ (d * K + a) := by exact_mod_cast hp
      rw [mul_one_div, div_le_iff₀ hp']
      linarith
    push_cast at *
    constructor <;> linarith [ih.1, ih.2]

/-- The whole series. -/
theorem fixSum_near {F q d a K : ℕ} {s : ℝ} (ha : 1 ≤ a) (hq : 2 ≤ q) (hd : 1 ≤ d) (hF : F ≤ q ^ (d * K + a))
    (hs : HasSum (fun k : ℕ => 1 / (((d * k + a : ℕ) : ℝ) * (q : ℝ) ^ (d * k + a))) s) :
    (fixSum F q d a K : ℝ) ≤ F * s ∧ F * s ≤ fixSum F q d a K + K + 2 := by
  obtain ⟨h1, h2⟩ := fixSum_le F q d a K ha hq
  have h3 := hs.summable.sum_add_tsum_nat_add K
  rw [hs.tsum_eq] at h3
  have hq' : (2 : ℝ) ≤ q := by exact_mod_cast hq
  have h4 : 0 ≤ ∑' k : ℕ, (fun k : ℕ => 1 / (((d * k + a : ℕ) : ℝ) * (q : ℝ) ^ (d * k + a))) (k + K) :=
    tsum_nonneg fun k => by positivity
  have h5 : ∑' k : ℕ, (fun k : ℕ => 1 / (((d * k + a : ℕ) : ℝ) * (q : ℝ) ^ (d * k + a))) (k + K) ≤ 2 / (q : ℝ) ^ (d * K + a) := by
    have hg : HasSum (fun k : ℕ => (1 / (q : ℝ) ^ (d * K + a)) * (1 / 2) ^ k) ((1 / (q : ℝ) ^ (d * K + a)) * 2) :=
      hasSum_geometric_two.mul_left _
    have := ((summable_nat_add_iff K).2 hs.summable).tsum_le_tsum (fun k => ?_) hg.summable
    · refine this.trans ?_
      rw [hg.tsum_eq]; apply le_of_eq; ring
    · have e1 : (1 : ℝ) ≤ ((d * (k + K) + a : ℕ) : ℝ) := by exact_mod_cast (show 1 ≤ d * (k + K) + a by omega)
      have e2 : (q : ℝ) ^ (d * K + a) * 2 ^ k ≤ (q : ℝ) ^ (d * (k + K) + a) := by
        have : d * (k + K) + a = (d * K + a) + d * k := by ring
        have h2 : (2 : ℝ) ^ k ≤ (q : ℝ) ^ (d * k) :=
          (pow_le_pow_left₀ (by norm_num) hq' k).trans (pow_le_pow_right₀ (by linarith) (by nlinarith))
        rw [this, pow_add _ (d * K + a)]
        exact mul_le_mul_of_nonneg_left h2 (pow_nonneg (by linarith) _)
      have e3 : (1 / (q : ℝ) ^ (d * K + a)) * (1 / 2) ^ k = 1 / ((q : ℝ) ^ (d * K + a) * 2 ^ k) := by
        rw [div_pow, one_pow]; field_simp
      rw [e3]
      refine one_div_le_one_div_of_le (by positivity) (e2.trans ?_)
      nlinarith [show (0:ℝ) ≤ (q : ℝ) ^ (d * (k + K) + a) by positivity]
  have h6 : (F : ℝ) ≤ (q : ℝ) ^ (d * K + a) := by exact_mod_cast hF
  have h7 : (F : ℝ) * (2 / (q : ℝ) ^ (d * K + a)) ≤ 2 := by
    rw [mul_div_assoc', div_le_iff₀ (by positivity)]; linarith
  have hF0 : (0 : ℝ) ≤ F := Nat.cast_nonneg _
  have h8 := mul_le_mul_of_nonneg_left h5 hF0
  have h9 := mul_nonneg hF0 h4
  rw [← h3, mul_add]
  constructor <;> linarith

/-- `log ((q+1)/(q-1)) = 2 artanh (1/q)`. -/
theorem artanh_sum {q : ℕ} (hq : 2 ≤ q) :
    HasSum (fun k : ℕ => 1 / (((2 * k + 1 : ℕ) : ℝ) * (q : ℝ) ^ (2 * k + 1)))
      ((Real.log (1 + 1 / q) - Real.log (1 - 1 / q)) / 2) := by
  have hq' : (2 : ℝ) ≤ q := by exact_mod_cast hq
  have h1 : |1 / (q : ℝ)| < 1 := by
    rw [abs_of_pos (by positivity), div_lt_one (by linarith)]; linarith
  have := (Real.hasSum_log_sub_log_of_abs_lt_one h1).div_const 2
  refine this.congr_fun ?_
  intro k
  push_cast
  rw [div_pow, one_pow]
  field_simp

/-- `arctan (1/q)` as a difference of two series of positive terms. -/
theorem arctan_sums {q : ℕ} (hq : 2 ≤ q) : ∃ s t : ℝ,
    HasSum (fun k : ℕ => 1 / (((4 * k + 1 : ℕ) : ℝ) * (q : ℝ) ^ (4 * k + 1))) s ∧
    HasSum (fun k : ℕ => 1 / (((4 * k + 3 : ℕ) : ℝ) * (q : ℝ) ^ (4 * k + 3))) t ∧
    Real.arctan (q : ℝ)⁻¹ = s - t := by
  have hq' : (2 : ℝ) ≤ q := by exact_mod_cast hq
  have h0 : Summable (fun k : ℕ => 1 / (((2 * k + 1 : ℕ) : ℝ) * (q : ℝ) ^ (2 * k + 1))) := (artanh_sum hq).summable
  have hs : Summable (fun k : ℕ => 1 / (((4 * k + 1 : ℕ) : ℝ) * (q : ℝ) ^ (4 * k + 1))) := by
    have := h0.comp_injective (i := fun k : ℕ => 2 * k) (fun a b h => by simpa using h)
    refine this.congr fun k => ?_
    simp only [Function.comp]
    rw [show 2 * (2 * k) + 1 = 4 * k + 1 by ring]
  have ht : Summable (fun k : ℕ => 1 / (((4 * k + 3 : ℕ) : ℝ) * (q : ℝ) ^ (4 * k + 3))) := by
    have := h0.comp_injective (i := fun k : ℕ => 2 * k + 1) (fun a b h => by simpa using h)
    refine this.congr fun k => ?_
    simp only [Function.comp]
    rw [show 2 * (2 * k + 1) + 1 = 4 * k + 3 by ring]
  refine ⟨_, _, hs.hasSum, ht.hasSum, ?_⟩
  have h1 : ‖(q : ℝ)⁻¹‖ < 1 := by
    rw [Real.norm_eq_abs, abs_of_pos (by positivity)]
    exact inv_lt_one_of_one_lt₀ (by linarith)
  have h2 := Real.hasSum_arctan h1
  have h3 := HasSum.even_add_odd (f := fun n : ℕ => (-1) ^ n * (q : ℝ)⁻¹ ^ (2 * n + 1) / ((2 * n + 1 : ℕ) : ℝ))
    (m := ∑' k : ℕ, 1 / (((4 * k + 1 : ℕ) : ℝ) * (q : ℝ) ^ (4 * k + 1)))
    (m' := -∑' k : ℕ, 1 / (((4 * k + 3 : ℕ) : ℝ) * (q : ℝ) ^ (4 * k + 3))) ?_ ?_
  · rw [h2.unique h3]; ring
  · refine hs.hasSum.congr_fun ?_
    intro k
    rw [pow_mul, show 2 * (2 * k) + 1 = 4 * k + 1 by ring, inv_pow]
    norm_num
    field_simp
  · refine ht.hasSum.neg.congr_fun ?_
    intro k
    rw [pow_succ, pow_mul, show 2 * (2 * k + 1) + 1 = 4 * k + 3 by ring, inv_pow]
    norm_num
    field_simp

/-- Numerators of the partial sums of the exponential series at one. -/
def expNum : ℕ → ℕ
  | 0 => 1
  | n + 1 => (n + 1) * expNum n + 1

/-- Factorial by a plain recursion. -/
def fac : ℕ → ℕ
  | 0 => 1
  | n + 1 => (n + 1) * fac n

theorem fac_eq (n : ℕ) : fac n = n.factorial := by
  induction n with
  | zero => rfl
  | succ n ih => rw [fac, ih, Nat.factorial_succ]

theorem expNum_eq (n : ℕ) : (expNum n : ℝ) = fac n * ∑ k ∈ range (n + 1), 1 / (k.factorial : ℝ) := by
  induction n with
  | zero => simp [expNum, fac]
  | succ n ih =>
    rw [sum_range_succ, mul_add, expNum, fac, ← fac_eq (n + 1), fac]
    have : (fac n : ℝ) ≠ 0 := by rw [fac_eq]; exact_mod_cast n.factorial_ne_zero
    push_cast
    rw [ih]
    field_simp

/-- `e` between two fractions. -/
theorem exp_one_bounds (n : ℕ) :
    (expNum n : ℝ) ≤ fac n * Real.exp 1 ∧ fac n * Real.exp 1 ≤ expNum n + 2 := by
  have h1 := Real.sum_le_exp_of_nonneg (x := 1) (by norm_num) (n + 1)
  have h2 := Real.exp_bound' (x := 1) (by norm_num) le_rfl (n := n + 1) (by omega)
  simp only [one_pow] at h1 h2
  rw [expNum_eq]
  have hf : (0 : ℝ) < fac n := by rw [fac_eq]; exact_mod_cast n.factorial_pos
  refine ⟨mul_le_mul_of_nonneg_left h1 hf.le, ?_⟩
  have h3 := mul_le_mul_of_nonneg_left h2 hf.le
  rw [mul_add] at h3
  have h4 : (fac n : ℝ) * (1 * (((n + 1 : ℕ) : ℝ) + 1) / (((n + 1).factorial : ℝ) * ((n + 1 : ℕ) : ℝ))) ≤ 2 := by
    rw [← fac_eq (n + 1), fac]
    push_cast
    rw [mul_div_assoc', div_le_iff₀ (by positivity)]
    have h0 : (0 : ℝ) ≤ n := Nat.cast_nonneg _
    nlinarith [mul_nonneg hf.le h0, mul_nonneg (mul_nonneg hf.le h0) h0]
  linarith

end EFX
